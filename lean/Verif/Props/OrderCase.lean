import Verif.Props.Order
import Verif.Props.Switches
import Verif.Props.GNTotal
import Verif.Props.ReaderTotal
import Verif.Props.ObjectiveCase
/-
C86: reading in another order, a concrete case, and files in which a sensor has different numbers of columns.
-/
set_option autoImplicit false
namespace Verif
variable {α δ : Type}

section
variable [Field α] [DecidableEq α] {env : ReadEnv α δ} {ds ds' : List (Dataset α)}

/-- **C86, opening.** Files which can be read open in any order, and the sensor data fit in any order. -/
theorem C86_opens (he : EnumOk env.enumNat) (he' : EnumOk env.enumStr) (hp : ds.Perm ds') (hc : ConsistentFiles ds) (ho : OptionalSized ds)
    (hcol : ∀ d ∈ ds, ∀ s, d.HasSide s → ∀ c, c < s.m → d.ReadableColumn s c) {sd : SensorData α (SensorModel α δ) (AdjModel α)} {dflt : AdjModel α} {ms : Evaluable α δ}
    (h : openMatchUpWith env dflt ds sd = .ok ms) : ∃ ms' : Evaluable α δ, openMatchUpWith env dflt ds' sd = .ok ms' := by
  obtain ⟨mu, e, hmu, hex, rfl⟩ := openMatchUpWith_inv h
  obtain ⟨mu', hmu'⟩ := C67_opens env he he' (ds := ds') (by
      intro h0
      subst h0
      exact openMatchUp_nonempty hmu (List.Perm.eq_nil hp)) (hc.perm hp)
    (fun d hd e he => ho d (hp.mem_iff.2 hd) e (hp.mem_iff.2 he)) (fun d hd => hcol d (hp.mem_iff.2 hd))
  obtain ⟨e', hex'⟩ := extract_succeeds (fun s => (opened_sensors hp hmu hmu' s).2) hex
  exact ⟨_, bind_ok.2 ⟨_, hmu', bind_ok.2 ⟨_, hex', rfl⟩⟩⟩

/-- **C86, reading.** What is read for a file does not depend on where in the list it is, nor on the files around it. -/
theorem C86_reads (hc : ConsistentFiles ds) (hc' : ConsistentFiles ds') {mu mu' : MatchUp α δ} (h : openMatchUp env ds = .ok mu) (h' : openMatchUp env ds' = .ok mu')
    {i i' : Nat} {d : Dataset α} (hd : ds[i]? = some d) (hd' : ds'[i']? = some d) :
    (∀ name cov, mu'.getVariableData cov name (.num (i' + 1)) = mu.getVariableData cov name (.num (i + 1))) ∧
    mu'.unck[i']? = mu.unck[i]? ∧ (∃ lo lo', mu.idx.cNm[i]? = some lo ∧ mu'.idx.cNm[i']? = some lo' ∧ slice mu'.ks lo' (lo' + d.M) = slice mu.ks lo (lo + d.M)) ∧
    ∀ s, d.HasSide s → mu'.getSensorTime (i' + 1) s.name = mu.getSensorTime (i + 1) s.name := by
  have hcolumn : ∀ {ds : List (Dataset α)} {i : Nat}, ds[i]? = some d → ∀ name cov col, FileColumn ds name (i + 1) cov col ↔
      ∃ s, d.HasSide s ∧ s.name = name ∧ 1 ≤ cov ∧ cov ≤ s.m ∧ col = column d.M s.X (cov - 1) := by
    intro ds i hd name cov col
    unfold FileColumn
    constructor
    · rintro ⟨d', s, _, h1, h2, h3, h4, h5, h6⟩
      rw [Nat.add_sub_cancel, hd] at h1
      cases h1
      exact ⟨s, h2, h3, h4, h5, h6⟩
    · rintro ⟨s, h2, h3, h4, h5, h6⟩
      exact ⟨d, s, by omega, by rw [Nat.add_sub_cancel]; exact hd, h2, h3, h4, h5, h6⟩
  refine ⟨fun name cov => ?_, ?_⟩
  · by_cases hx : ∃ col, FileColumn ds name (i + 1) cov col
    · obtain ⟨col, hcol⟩ := hx
      rw [C03_getVariableData env ds hc mu h name (i + 1) cov col hcol,
        C03_getVariableData env ds' hc' mu' h' name (i' + 1) cov col ((hcolumn hd' name cov col).2 ((hcolumn hd name cov col).1 hcol))]
    · rw [C03_getVariableData_absent env ds hc mu h name (i + 1) cov (fun col hcol => hx ⟨col, hcol⟩),
        C03_getVariableData_absent env ds' hc' mu' h' name (i' + 1) cov (fun col hcol => hx ⟨col, (hcolumn hd name cov col).2 ((hcolumn hd' name cov col).1 hcol)⟩)]
  · obtain ⟨_, _, h3⟩ := C05_series_data env ds mu h
    obtain ⟨_, _, h3'⟩ := C05_series_data env ds' mu' h'
    obtain ⟨lo, hi, a1, _, rfl, a4, a5, a6, a7⟩ := h3 i d hd
    obtain ⟨lo', hi', b1, _, rfl, b4, b5, b6, b7⟩ := h3' i' d hd'
    refine ⟨by rw [a5, b5], ⟨lo, lo', a1, b1, by rw [a4, b4]⟩, ?_⟩
    have hne := hc.1 d (List.mem_of_getElem? hd)
    rintro s (rfl | rfl)
    · rw [a6, b6]
    · rw [a7 hne, b7 hne]
end

namespace Fixture

/-- Two match-ups of B and A, in this order, with random and systematic errors. -/
def turned : Dataset ℚ where
  M := 2
  s1 := qside "B" 2 [1, 2] [0, 0] 40
  s2 := qside "A" 2 [1, 2] [0, 0] 8
  K := fun i => (3 * i + 1 : Nat)
  Kr := fun _ => 1
  Ks := fun _ => 1
  time1 := fun _ => 0
  time2 := fun _ => 0
  hasUse := false
  vars := []
  wNnz := []
  wVal := []
  wCol := []
  wRow := []
  uCount := []
  uVal := []

/-- The same with one column for B. -/
def narrow : Dataset ℚ := { turned with s1 := qside "B" 1 [1] [0] 40 }

theorem twoFiles_solvable : SolvableFiles [rolling, turned] (gnModels : SensorData ℚ (SensorModel ℚ Int) (AdjModel ℚ)) 2 := by
  have hr := rolling_solvable
  have hmem : ∀ d ∈ [rolling, turned], d ∈ [rolling] ∨ d = turned := by
    intro d hd
    simpa using hd
  have hAB : "A" ≠ "B" := by decide
  have names : ∀ d ∈ [rolling, turned], ∀ s ∈ [d.s1, d.s2], (s.name = "A" ∨ s.name = "B") ∧ s.m = 2 := by
    intro d hd s hs
    simp only [List.mem_cons, List.not_mem_nil, or_false] at hd hs
    rcases hd with rfl | rfl <;> rcases hs with rfl | rfl
    · exact ⟨.inl rfl, rfl⟩
    · exact ⟨.inr rfl, rfl⟩
    · exact ⟨.inr rfl, rfl⟩
    · exact ⟨.inl rfl, rfl⟩
  refine ⟨⟨?_, ?_⟩, hr.keys, ?_, ⟨rolling, by simp, rolling.s1, .inl rfl, rfl⟩, ?_, ?_⟩
  · intro d hd
    rcases hmem d hd with h | rfl
    · exact hr.consistent.1 d h
    · show "B" ≠ "A"; decide
  · intro d hd e he s hs t ht _
    rw [(names d hd s hs).2, (names e he t ht).2]
  · intro d hd s hs
    have := (names d hd s (by rcases hs with rfl | rfl <;> simp)).2
    omega
  · intro d hd s hs c W U hc ht hW hU
    rcases hmem d hd with h | rfl
    · exact hr.matrices d h s hs c W U hc ht hW hU
    · have h1 : ∀ c, c < 2 → ¬ (turned.s1.utype c = 3 ∨ turned.s1.utype c = 4) := by decide
      have h2 : ∀ c, c < 2 → ¬ (turned.s2.utype c = 3 ∨ turned.s2.utype c = 4) := by decide
      rcases hs with rfl | rfl
      · exact absurd ht (h1 c hc)
      · exact absurd ht (h2 c hc)
  · intro d hd s hs e he
    rcases hmem d hd with h | rfl
    · exact hr.sensors d h s hs e he
    · rcases hs with rfl | rfl
      · have hn : turned.s1.name = "B" := rfl
        simp only [gnModels, hn, List.mem_cons, Prod.mk.injEq, true_and, hAB.symm, false_and, List.not_mem_nil, or_false, false_or] at he
        subst he
        refine ⟨?_, .inl ⟨gnCal_calibrated _, rfl, by simp⟩⟩
        intro B hB
        cases hB
        intro R
        exact ⟨_, _, rfl, by simp, by simp⟩
      · have hn : turned.s2.name = "A" := rfl
        simp only [gnModels, hn, List.mem_cons, Prod.mk.injEq, true_and, hAB, false_and, List.not_mem_nil, or_false] at he
        subst he
        refine ⟨(by intro B hB; cases hB), .inr ⟨gnRef_reference _ _, ?_⟩⟩
        have : ∀ c, c < turned.s2.m → turned.s2.utype c = 1 ∨ turned.s2.utype c = 2 := by decide
        exact this

def twoStart (ds : List (Dataset ℚ)) : Py (Evaluable ℚ Int × GN ℚ Int) := do
  let ms ← openMatchUpWith qenv defaultAdjustment ds gnModels
  let nm ← MatchUpS.normalise ms
  pure (ms, { hd := nm, xyza := nm.mu.values ++ nm.a, S := [[1, 1/2], [0, 3]] })

theorem twoStart_solves {ds : List (Dataset ℚ)} {p : Evaluable ℚ Int × GN ℚ Int} (h : twoStart ds = .ok p) (hl : p.2.hd.a.length = 2) :
    openMatchUpWith qenv defaultAdjustment ds gnModels = .ok p.1 ∧ p.2.Solves p.1 := by
  obtain ⟨ms, h1, h⟩ := bind_ok.1 h
  obtain ⟨nm, h2, h⟩ := bind_ok.1 h
  rw [pure_ok] at h
  subst h
  refine ⟨h1, h2, by simp, ?_, ?_⟩
  · show 2 = nm.a.length
    exact hl.symm
  · intro r hr
    have hl' : nm.a.length = 2 := hl
    show r.length = nm.a.length
    rw [hl']
    have : r ∈ [[1, 1/2], [0, 3]] := hr
    simp only [List.mem_cons, List.not_mem_nil, or_false] at this
    rcases this with rfl | rfl <;> rfl

/-- The hypotheses of C86 are met by two files, one of A and B with an averaged sensor, one of B and A: the sensors are numbered differently in the two orders, and the optimal
parameters and costs are the same. -/
theorem C86_case : ∃ (ms ms' : Evaluable ℚ Int) (g g' : GN ℚ Int), openMatchUpWith qenv defaultAdjustment [rolling, turned] gnModels = .ok ms ∧
    openMatchUpWith qenv defaultAdjustment [turned, rolling] gnModels = .ok ms' ∧ ms.mu.idx.sensors = ["A", "B"] ∧ ms'.mu.idx.sensors = ["B", "A"] ∧
    ms.mu.Normalisable ∧ g.Solves ms ∧ g'.Solves ms' ∧ (∃ f, g.calcF g.xyza = .ok f) ∧ ∀ a q, g.Optimal a q ↔ g'.Optimal a q := by
  obtain ⟨p, h1, h2⟩ := check_ok' (x := twoStart [rolling, turned]) (fun p => normOk p.1.mu && decide (p.2.hd.a.length = 2) && decide (p.1.mu.idx.sensors = ["A", "B"])) (by decide +kernel)
  obtain ⟨p', h1', h2'⟩ := check_ok' (x := twoStart [turned, rolling]) (fun p => decide (p.2.hd.a.length = 2) && decide (p.1.mu.idx.sensors = ["B", "A"])) (by decide +kernel)
  simp only [Bool.and_eq_true, decide_eq_true_eq] at h2 h2'
  obtain ⟨⟨n1, n2⟩, n3⟩ := h2
  obtain ⟨n2', n3'⟩ := h2'
  obtain ⟨o1, o2⟩ := twoStart_solves h1 n2
  obtain ⟨o1', o2'⟩ := twoStart_solves h1' n2'
  obtain ⟨labels, clabels, hr⟩ := opened_solverReady qenv_enum twoFiles_solvable o1
  have hn := normOk_spec hr.wf n1
  obtain ⟨N, n, hs⟩ := o2.setup hr
  obtain ⟨f, hf, _⟩ := calcF_total hs hs.xlen
  exact ⟨p.1, p'.1, p.2, p'.2, o1, o1', n3, n3', hn, o2, o2', ⟨f, hf⟩,
    C86_optimum qenv_enum (List.Perm.swap _ _ _) twoFiles_solvable o1 o1' hn o2 o2'⟩

/-- **C86, failure.** Files in which a sensor has different numbers of columns: read without uncertainties, they open in one order (and a column of data is left out) and not in the
other. With uncertainties they open in neither. -/
theorem C86_columns_fail : (∃ mu, openMatchUpIf qenv [narrow, turned] false true = .ok mu ∧ mu.values.length = 12 ∧ mu.getVariableData 2 "B" (.num 2) = .error .valueError) ∧
    turned.s1.m = 2 ∧ (∀ mu, openMatchUpIf qenv [turned, narrow] false true ≠ .ok mu) ∧
    (∀ mu, openMatchUp qenv [narrow, turned] ≠ .ok mu) ∧ ∀ mu, openMatchUp qenv [turned, narrow] ≠ .ok mu := by
  have key : ∀ (x : Py (MatchUp ℚ Int)), (match x with | .ok _ => false | .error _ => true) = true → ∀ mu, x ≠ .ok mu := by
    intro x hx mu h
    rw [h] at hx
    cases hx
  obtain ⟨mu, h1, h2⟩ := check_ok' (x := openMatchUpIf qenv [narrow, turned] false true) (fun mu => decide (mu.values.length = 12) &&
    decide (mu.getVariableData 2 "B" (.num 2) = .error .valueError)) (by decide +kernel)
  simp only [Bool.and_eq_true, decide_eq_true_eq] at h2
  exact ⟨⟨mu, h1, h2.1, h2.2⟩, rfl, key _ (by decide +kernel), key _ (by decide +kernel), key _ (by decide +kernel)⟩
end Fixture
end Verif
