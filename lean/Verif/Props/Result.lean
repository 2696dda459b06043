import Verif.Spec.Result
import Verif.Lemmas.ReaderSeries
/-
Property C39: what is written to the output file is read back.
-/
set_option autoImplicit false
namespace Verif
variable {α : Type}

theorem dropWhile_none {p : Char → Bool} {l : List Char} (h : ∀ c, l.head? = some c → p c = false) : l.dropWhile p = l := by
  cases l with
  | nil => rfl
  | cons a l => rw [List.dropWhile_cons_of_neg]; simp [h a rfl]

theorem strip_padName {s : String} (h : NoEdgeBlanks s) : String.ofList (strip (padName s)) = s := by
  have key : strip (padName s) = s.toList := by
    unfold strip padName
    cases hs : s.toList with
    | nil =>
      have : ∀ n, (List.replicate n ' ').dropWhile isBlank = [] := by
        intro n; induction n with
        | zero => rfl
        | succ n ih => rw [List.replicate_succ, List.dropWhile_cons_of_pos (by decide), ih]
      simp [this]
    | cons a l =>
      have e1 : ((a :: l) ++ List.replicate (nameWidth - (a :: l).length) ' ').dropWhile isBlank =
          (a :: l) ++ List.replicate (nameWidth - (a :: l).length) ' ' := by
        apply dropWhile_none
        intro c hc
        exact h.1 c (by rw [hs]; simpa using hc)
      rw [e1, List.reverse_append, List.reverse_replicate]
      have e2 : ∀ (n : Nat) (t : List Char), (∀ c, t.head? = some c → isBlank c = false) → (List.replicate n ' ' ++ t).dropWhile isBlank = t := by
        intro n t ht
        induction n with
        | zero => simpa using dropWhile_none ht
        | succ n ih => rw [List.replicate_succ, List.cons_append, List.dropWhile_cons_of_pos (by decide), ih]
      rw [e2 _ _ (by intro c hc; rw [List.head?_reverse] at hc; exact h.2 c (by rw [hs]; exact hc)), List.reverse_reverse]
  rw [key, String.ofList_toList]

theorem charRows_ok {names : List String} {rows : List (List Char)} (h : charRows names = .ok rows) :
    names ≠ [] ∧ (∀ s ∈ names, s.toList.length ≤ nameWidth) ∧ rows = names.map padName := by
  unfold charRows at h
  split at h
  · cases h
  · rename_i h1
    split at h
    · cases h
    · rename_i h2
      simp only [List.any_eq_true, decide_eq_true_eq, not_exists, not_and, Nat.not_lt] at h2
      cases h
      exact ⟨h1, h2, rfl⟩

theorem charRows_back {names : List String} {rows : List (List Char)} (h : charRows names = .ok rows) (hb : ∀ s ∈ names, NoEdgeBlanks s) :
    rows.map (fun r => String.ofList (strip r)) = names := by
  rw [(charRows_ok h).2.2, List.map_map]
  conv_rhs => rw [← List.map_id names]
  exact List.map_congr_left fun s hs => strip_padName (hb s hs)

theorem setAtts_ok : ∀ (l acc out : List (String × AttVal α)), (acc ++ l).map (·.1) |>.Nodup → l.foldlM setAtt acc = .ok out → out = acc ++ l
  | [], acc, out, _, h => by simp only [List.foldlM_nil] at h; cases h; simp
  | a :: l, acc, out, hn, h => by
    rw [List.foldlM_cons] at h
    obtain ⟨b, h1, h2⟩ := bind_ok.1 h
    have hb : b = acc ++ [a] := by
      have hno : acc.any (fun b => b.1 == a.1) = false := by
        rw [List.any_eq_false]
        intro x hx
        simp only [List.map_append, List.map_cons, List.nodup_append] at hn
        have := hn.2.2 x.1 (List.mem_map.2 ⟨x, hx, rfl⟩) a.1 (by simp)
        simpa using this
      unfold setAtt at h1
      rw [hno] at h1
      split at h1
      · cases h1
      · simpa using h1.symm
    subst hb
    rw [setAtts_ok l _ out (by simpa using hn) h2]; simp

theorem setAtts_total : ∀ (l acc : List (String × AttVal α)), (∀ a ∈ l, a.2 ≠ .missing) → ∃ out, l.foldlM setAtt acc = .ok out
  | [], acc, _ => ⟨acc, rfl⟩
  | a :: l, acc, h => by
    rw [List.foldlM_cons]
    have : ∃ b, setAtt acc a = .ok b := by
      unfold setAtt
      split
      · rename_i h'; exact absurd h' (h a (by simp))
      · exact ⟨_, rfl⟩
    obtain ⟨b, hb⟩ := this
    obtain ⟨out, ho⟩ := setAtts_total l b (fun x hx => h x (by simp [hx]))
    exact ⟨out, bind_ok.2 ⟨b, hb, ho⟩⟩

theorem writeVar_inv {st st' : DimTable × List (String × OutVar α)} {v : String × AddVar α} (h : writeVar st v = .ok st')
    (hb : ∀ s ∈ v.2.nameList, NoEdgeBlanks s) : ∃ w, st'.2 = st.2 ++ [(v.1, w)] ∧ SameVar v.2 w := by
  unfold writeVar at h
  split at h
  · cases h
  · split at h
    · obtain ⟨w, h1, h2⟩ := bind_ok.1 h
      rw [pure_ok] at h2
      subst h2
      refine ⟨w, rfl, ?_⟩
      revert h1 hb
      cases v.2 with
      | num d l => intro _ h1; cases h1; exact ⟨rfl, rfl⟩
      | names d l =>
        intro hb h1
        obtain ⟨rows, h3, h4⟩ := bind_ok.1 h1
        rw [pure_ok] at h4
        subst h4
        exact ⟨rfl, (charRows_back h3 hb).symm⟩
    · cases h

theorem lookup_append_none {κ β : Type} [BEq κ] [LawfulBEq κ] {l : List (κ × β)} {k : κ} {b : β} (h : l.lookup k = none) : (l ++ [(k, b)]).lookup k = some b := by
  induction l with
  | nil => simp [List.lookup]
  | cons a l ih =>
    simp only [List.cons_append, List.lookup] at h ⊢
    split at h
    · cases h
    · exact ih h

theorem lookup_append_some {κ β : Type} [BEq κ] [LawfulBEq κ] {l : List (κ × β)} {k k' : κ} {b c : β} (h : (l ++ [(k, b)]).lookup k' = some c) :
    l.lookup k' = some c ∨ (k' = k ∧ c = b) := by
  induction l with
  | nil =>
    simp only [List.nil_append, List.lookup] at h
    split at h
    · rename_i he; cases h; exact .inr ⟨by simpa using he, rfl⟩
    · cases h
  | cons a l ih =>
    simp only [List.cons_append, List.lookup] at h ⊢
    split at h
    · exact .inl h
    · exact ih h

theorem charRows_total {l : List String} (h1 : l ≠ []) (h2 : ∀ s ∈ l, s.toList.length ≤ 80) : ∃ rows, charRows l = .ok rows := by
  unfold charRows
  rw [if_neg h1, if_neg (by
    rw [List.any_eq_true]
    rintro ⟨s, hs, hl⟩
    have := h2 s hs
    have hl := of_decide_eq_true hl
    unfold nameWidth at hl
    omega)]
  exact ⟨_, rfl⟩

theorem writeVars_total {size : Char → Nat} : ∀ (l : List (String × AddVar α)) (st : DimTable × List (String × OutVar α)),
    (∀ d k, st.1.lookup d = some k → k = size d) →
    (∀ v ∈ l, v.1 ∉ ["parameter", "parameter_covariance_matrix", "parameter_sensors"] ∧
      match v.2 with
      | .num d l => l.length = size d
      | .names d l => l.length = size d ∧ l ≠ [] ∧ ∀ s ∈ l, s.toList.length ≤ 80) → ∃ st', l.foldlM writeVar st = .ok st'
  | [], st, _, _ => ⟨st, rfl⟩
  | v :: l, st, hd, h => by
    obtain ⟨hn, hv⟩ := h v (by simp)
    have hsz : v.2.size = size v.2.dim := by revert hv; cases v.2 with
      | num d l => exact id
      | names d l => exact fun h => h.1
    have hst : ∃ w, v.2.stored = .ok w := by revert hv; cases v.2 with
      | num d l => exact fun _ => ⟨_, rfl⟩
      | names d l => intro h; obtain ⟨rows, hr⟩ := charRows_total h.2.1 h.2.2; exact ⟨_, bind_ok.2 ⟨rows, hr, rfl⟩⟩
    obtain ⟨w, hw⟩ := hst
    have hlk : (dimsWith st.1 v.2.dim v.2.size).lookup v.2.dim = some v.2.size := by
      unfold dimsWith
      cases e : st.1.lookup v.2.dim with
      | none => simpa using lookup_append_none e
      | some k => simp only [Option.isSome_some, if_true]; rw [e, hd _ _ e, hsz]
    have hw' : writeVar st v = .ok (dimsWith st.1 v.2.dim v.2.size, st.2 ++ [(v.1, w)]) := by
      unfold writeVar
      rw [if_neg hn, if_pos hlk]
      exact bind_ok.2 ⟨w, hw, rfl⟩
    obtain ⟨st', h'⟩ := writeVars_total l (dimsWith st.1 v.2.dim v.2.size, st.2 ++ [(v.1, w)]) (by
      intro d k hk
      simp only [dimsWith] at hk
      split at hk
      · exact hd d k hk
      · rcases lookup_append_some hk with hk | ⟨rfl, rfl⟩
        · exact hd d k hk
        · exact hsz) (fun x hx => h x (by simp [hx]))
    exact ⟨st', by rw [List.foldlM_cons]; exact bind_ok.2 ⟨_, hw', h'⟩⟩

theorem writeVars_inv : ∀ (l : List (String × AddVar α)) (st st' : DimTable × List (String × OutVar α)), l.foldlM writeVar st = .ok st' →
    (∀ v ∈ l, ∀ s ∈ v.2.nameList, NoEdgeBlanks s) →
    ∃ ws, st'.2 = st.2 ++ ws ∧ ws.length = l.length ∧ ∀ (i : Nat) (v : String × AddVar α) (w : String × OutVar α), l[i]? = some v → ws[i]? = some w → w.1 = v.1 ∧ SameVar v.2 w.2
  | [], st, st', h, _ => by simp only [List.foldlM_nil] at h; cases h; exact ⟨[], by simp, rfl, by simp⟩
  | v :: l, st, st', h, hb => by
    rw [List.foldlM_cons] at h
    obtain ⟨mid, h1, h2⟩ := bind_ok.1 h
    obtain ⟨w, e1, e2⟩ := writeVar_inv h1 (hb v (by simp))
    obtain ⟨ws, g1, g2, g3⟩ := writeVars_inv l mid st' h2 (fun x hx => hb x (by simp [hx]))
    refine ⟨(v.1, w) :: ws, by rw [g1, e1]; simp, by simp [g2], ?_⟩
    intro i v' w' hi hi'
    cases i with
    | zero => simp at hi hi'; subst hi; subst hi'; exact ⟨rfl, e2⟩
    | succ i => simp at hi hi'; exact g3 i v' w' hi hi'

theorem writeOutput_ok {r : HarmResult α} {f : OutFile α} (h : r.writeOutput = .ok f) :
    ∃ attrs rows st, ([("cost", r.cost), ("cost_dof", r.dof), ("cost_p_value", r.pValue)] ++ r.attrs).foldlM setAtt [] = .ok attrs ∧
      checkCov r.parameter.length r.covariance = .ok f.covariance ∧ charRows r.sensors = .ok rows ∧ rows.length = r.parameter.length ∧
      r.vars.foldlM writeVar ([('n', r.parameter.length)], []) = .ok st ∧
      f = { attrs := attrs, parameter := r.parameter, covariance := f.covariance, sensors := rows, vars := st.2 } := by
  unfold HarmResult.writeOutput at h
  obtain ⟨attrs, h1, h⟩ := bind_ok.1 h
  obtain ⟨cov, h2, h⟩ := bind_ok.1 h
  obtain ⟨rows, h3, h⟩ := bind_ok.1 h
  split at h
  · rename_i hl
    obtain ⟨st, h4, h⟩ := bind_ok.1 h
    rw [pure_ok] at h
    subst h
    exact ⟨attrs, rows, st, h1, h2, h3, hl, h4, rfl⟩
  · cases h

theorem checkCov_ok {n : Nat} {c : Option (List (List α))} {rows : List (List α)} (h : checkCov n c = .ok rows) :
    c = some rows ∧ rows.length = n ∧ ∀ r ∈ rows, r.length = n := by
  unfold checkCov at h
  split at h
  · cases h
  · split at h
    · rename_i hh
      cases h
      exact ⟨rfl, hh.1, by simpa using hh.2⟩
    · cases h

/-- **C39.** Whatever a result holds, if the output file can be written, reading it gives back the parameters, the covariance matrix, the sensor of each parameter,
the three statistics, the additional attributes and the additional variables. Conditions: names without surrounding blanks, and additional attributes with
ordinary names. -/
theorem C39_output_roundtrip {r : HarmResult α} (hn : ∀ s ∈ r.sensors, NoEdgeBlanks s) (hv : ∀ v ∈ r.vars, ∀ s ∈ v.2.nameList, NoEdgeBlanks s)
    (ha : PlainAttrs r.attrs) {f : OutFile α} (h : r.writeOutput = .ok f) :
    ∃ o, f.open = .ok o ∧ o.parameter = r.parameter ∧ o.sensors = r.sensors ∧ r.covariance = some o.covariance ∧
      o.cost = r.cost ∧ o.dof = r.dof ∧ o.pValue = r.pValue ∧ o.attrs = r.attrs ∧
      o.vars.length = r.vars.length ∧
      ∀ (i : Nat) (v : String × AddVar α) (w : String × OutVar α), r.vars[i]? = some v → o.vars[i]? = some w → w.1 = v.1 ∧ SameVar v.2 w.2 := by
  obtain ⟨attrs, rows, st, h1, h2, h3, h4, h5, h6⟩ := writeOutput_ok h
  obtain ⟨c1, c2, c3⟩ := checkCov_ok h2
  have hatt := setAtts_ok _ [] attrs (by
    simp only [List.nil_append, List.map_append, List.map_cons, List.map_nil, List.nodup_append]
    refine ⟨by decide, ha.1, ?_⟩
    intro a hx b hy hab
    obtain ⟨y, hy', hyb⟩ := List.mem_map.1 hy
    refine (ha.2 y hy').1 ?_
    rw [hyb, ← hab]; exact hx) h1
  rw [List.nil_append] at hatt
  obtain ⟨ws, g1, g2, g3⟩ := writeVars_inv _ _ _ h5 hv
  have hf : f.attrs = [("cost", r.cost), ("cost_dof", r.dof), ("cost_p_value", r.pValue)] ++ r.attrs := by rw [h6]; exact hatt
  have e1 : getAtt f.attrs "cost" = .ok r.cost := by rw [hf]; simp [getAtt, List.lookup]
  have e2 : getAtt f.attrs "cost_dof" = .ok r.dof := by rw [hf]; simp [getAtt, List.lookup]
  have e3 : getAtt f.attrs "cost_p_value" = .ok r.pValue := by rw [hf]; simp [getAtt, List.lookup]
  refine ⟨_, bind_ok.2 ⟨_, e1, bind_ok.2 ⟨_, e2, bind_ok.2 ⟨_, e3, rfl⟩⟩⟩, ?_, ?_, c1, rfl, rfl, rfl, ?_, ?_, ?_⟩
  · simp only; rw [h6]
  · simp only; rw [h6]; exact charRows_back h3 hn
  · simp only [hf, List.filter_append]
    have : List.filter (fun a : String × AttVal α => decide (a.1 ∉ ["cost", "cost_dof", "cost_p_value"]) && decide (a.1.toList.head? ≠ some '_'))
        [("cost", r.cost), ("cost_dof", r.dof), ("cost_p_value", r.pValue)] = [] := by
      rw [List.filter_eq_nil_iff]
      intro a hx
      simp only [List.mem_cons, List.not_mem_nil, or_false] at hx
      rcases hx with rfl | rfl | rfl <;> simp
    rw [this, List.nil_append, List.filter_eq_self]
    intro a hx
    have := ha.2 a hx
    simp only [Bool.and_eq_true, decide_eq_true_eq]
    exact this
  · simp only; rw [h6]; simp only; rw [g1]; simpa using g2
  · simp only; rw [h6]; simp only; rw [g1]; simpa using g3

/-- The output file can be written whenever the result is complete and of the right sizes. -/
theorem C39_writes {r : HarmResult α} {cov : List (List α)} (hc : r.covariance = some cov) (hl : cov.length = r.parameter.length)
    (hr : ∀ row ∈ cov, row.length = r.parameter.length) (hs : r.sensors.length = r.parameter.length) (hp : r.parameter ≠ [])
    (hw : ∀ s ∈ r.sensors, s.toList.length ≤ 80) (h1 : r.cost ≠ .missing) (h2 : r.dof ≠ .missing) (h3 : r.pValue ≠ .missing)
    (ha : ∀ a ∈ r.attrs, a.2 ≠ .missing) (hv : VarsFit r.parameter.length r.vars) : ∃ f, r.writeOutput = .ok f := by
  obtain ⟨attrs, e1⟩ := setAtts_total ([("cost", r.cost), ("cost_dof", r.dof), ("cost_p_value", r.pValue)] ++ r.attrs) [] (by
    intro a hx
    simp only [List.cons_append, List.nil_append, List.mem_cons] at hx
    rcases hx with rfl | rfl | rfl | hx
    · exact h1
    · exact h2
    · exact h3
    · exact ha a hx)
  have e2 : checkCov r.parameter.length r.covariance = .ok cov := by
    rw [hc]; simp only [checkCov]; rw [if_pos ⟨hl, by simpa using hr⟩]
  obtain ⟨rows, e3⟩ := charRows_total (l := r.sensors) (by intro h; rw [h] at hs; exact hp (List.eq_nil_of_length_eq_zero hs.symm)) hw
  have hrl : rows.length = r.parameter.length := by rw [(charRows_ok e3).2.2]; simpa using hs
  obtain ⟨size, s1, s2⟩ := hv
  obtain ⟨st, e4⟩ := writeVars_total r.vars ([('n', r.parameter.length)], []) (by
    intro d k hk
    simp only [List.lookup] at hk
    split at hk
    · rename_i hd
      cases hk
      have : d = 'n' := by simpa using hd
      rw [this, s1]
    · cases hk) s2
  exact ⟨_, bind_ok.2 ⟨_, e1, bind_ok.2 ⟨_, e2, bind_ok.2 ⟨_, e3, by rw [if_pos hrl]; exact bind_ok.2 ⟨_, e4, rfl⟩⟩⟩⟩⟩

/-- A result without one of the statistics - which is what the preconditioner returns (pc_algo.py L177-182) - or without a covariance matrix cannot be saved. -/
theorem C39_incomplete_fails {r : HarmResult α} (hi : r.cost = .missing ∨ r.dof = .missing ∨ r.pValue = .missing ∨ r.covariance = none) (f : OutFile α) :
    r.writeOutput ≠ .ok f := by
  intro h
  obtain ⟨attrs, rows, st, h1, h2, -⟩ := writeOutput_ok h
  rcases hi with hi | hi | hi | hi
  · rw [hi] at h1; simp [setAtt, bind, Except.bind] at h1
  · rw [hi] at h1
    rw [List.cons_append, List.foldlM_cons] at h1
    obtain ⟨a, -, h1⟩ := bind_ok.1 h1
    simp [setAtt, bind, Except.bind] at h1
  · rw [hi] at h1
    rw [List.cons_append, List.foldlM_cons] at h1
    obtain ⟨a, -, h1⟩ := bind_ok.1 h1
    rw [List.cons_append, List.foldlM_cons] at h1
    obtain ⟨b, -, h1⟩ := bind_ok.1 h1
    simp [setAtt, bind, Except.bind] at h1
  · rw [hi] at h2; simp [checkCov] at h2

/-- A sensor name longer than the 80 characters of the field cannot be saved. -/
theorem C39_long_name_fails {r : HarmResult α} {s : String} (hs : s ∈ r.sensors) (hl : 80 < s.toList.length) (f : OutFile α) : r.writeOutput ≠ .ok f := by
  intro h
  obtain ⟨attrs, rows, st, -, -, h3, -⟩ := writeOutput_ok h
  have := (charRows_ok h3).2.1 s hs
  simp only [nameWidth] at this
  omega

/-- A name with a blank at an end comes back without it. -/
theorem C39_blank_lost {r : HarmResult α} {f : OutFile α} {o : OpenedOutput α} (h : r.writeOutput = .ok f) (ho : f.open = .ok o) {i : Nat} {s : String}
    (hs : r.sensors[i]? = some s) {c : Char} (hc : s.toList.head? = some c) (hb : isBlank c = true) : o.sensors[i]? ≠ some s := by
  intro hh
  obtain ⟨attrs, rows, st, -, -, h3, -, -, h6⟩ := writeOutput_ok h
  unfold OutFile.open at ho
  obtain ⟨_, -, ho⟩ := bind_ok.1 ho
  obtain ⟨_, -, ho⟩ := bind_ok.1 ho
  obtain ⟨_, -, ho⟩ := bind_ok.1 ho
  rw [pure_ok] at ho
  subst ho
  simp only at hh
  rw [h6] at hh
  simp only [(charRows_ok h3).2.2, List.map_map, List.getElem?_map, hs, Option.map_some, Option.some.injEq, Function.comp_apply] at hh
  have hh' : strip (padName s) = s.toList := by rw [← String.toList_ofList (l := strip (padName s)), hh]
  have hhead : (strip (padName s)).head? = some c := by rw [hh']; exact hc
  have key : ∀ (l : List Char) (c : Char), (strip l).head? = some c → isBlank c = false := by
    intro l c hc
    unfold strip at hc
    rw [List.head?_reverse] at hc
    have hmem : ∀ (t : List Char) (c : Char), (t.dropWhile isBlank).getLast? = some c → t.getLast? = some c := by
      intro t
      induction t with
      | nil => intro c h; simp at h
      | cons a t ih =>
        intro c h
        by_cases ha : isBlank a = true
        · rw [List.dropWhile_cons_of_pos ha] at h
          have := ih c h
          cases t with
          | nil => simp at this
          | cons b t => simpa [List.getLast?_cons_cons] using this
        · rw [List.dropWhile_cons_of_neg (by simpa using ha)] at h; exact h
    have h2 := hmem _ _ hc
    rw [List.getLast?_reverse] at h2
    have h3 := List.head?_dropWhile_not isBlank l
    rw [h2] at h3
    simpa using h3
  rw [key _ _ hhead] at hb
  cases hb

end Verif
