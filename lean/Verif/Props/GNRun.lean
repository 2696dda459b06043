import Verif.Spec.Run
import Verif.Props.GN
import Verif.Lemmas.GNResidual
/-
Properties C32 - C36: the Gauss-Newton loop, reported systematic errors and degrees of freedom, restarting, numbers of covariates.
-/
set_option autoImplicit false
namespace Verif
variable {α δ : Type} [Field α]

/-! ### C32 -/

theorem sqNorm_dotp (v : List α) : sqNorm v = dotp v v := by
  unfold sqNorm dotp
  congr 1
  induction v with
  | nil => rfl
  | cons x l ih => simp only [List.map_cons, List.zipWith_cons_cons, ih]

section
variable [LinearOrder α]

theorem infNorm_spec {v : List α} {m : α} (h : infNorm v = .ok m) : IsSupNorm v m := by
  unfold infNorm at h
  have key : ∀ (l : List α) (z : α), (l.foldl max z = z ∨ l.foldl max z ∈ l) ∧ z ≤ l.foldl max z ∧ ∀ x ∈ l, x ≤ l.foldl max z := by
    intro l
    induction l with
    | nil => intro z; simp
    | cons a l ih =>
      intro z
      obtain ⟨h1, h2, h3⟩ := ih (max z a)
      simp only [List.foldl_cons, List.mem_cons, forall_eq_or_imp]
      refine ⟨?_, le_trans (le_max_left _ _) h2, le_trans (le_max_right _ _) h2, h3⟩
      rcases h1 with h1 | h1
      · rcases max_choice z a with hm | hm
        · exact .inl (by rw [h1, hm])
        · exact .inr (.inl (by rw [h1, hm]))
      · exact .inr (.inr h1)
  split at h
  · cases h
  · rename_i x xs he
    cases h
    obtain ⟨h1, h2, h3⟩ := key xs x
    constructor
    · have : xs.foldl max x ∈ v.map fun x => |x| := by
        rw [he]
        rcases h1 with h1 | h1
        · rw [h1]; simp
        · exact List.mem_cons_of_mem _ h1
      obtain ⟨y, hy, e⟩ := List.mem_map.1 this
      exact ⟨y, hy, e⟩
    · intro y hy
      have : |y| ∈ x :: xs := by rw [← he]; exact List.mem_map_of_mem hy
      rcases List.mem_cons.1 this with e | e
      · rw [e]; exact h2
      · exact h3 _ e

/-- Invariant of the loop state: residuals and cost belong to the current estimate. -/
structure GNState.Good (g : GN α δ) (st : GNState α) : Prop where
  res : g.calcF st.xyza = .ok st.residuals
  prev : st.cost_previous = dotp st.residuals st.residuals
  niter : st.niter = st.log.length
  cost : (st.log = [] → st.cost = none) ∧ (st.log ≠ [] → st.cost = some (dotp st.residuals st.residuals))
  conv : st.conv = true ↔ ∃ l, st.log.getLast? = some l ∧ l.Met

theorem needArray_ok {s : Option (List α)} {z : List α} (h : needArray s = .ok z) : s = some z := by
  cases s
  · cases h
  · exact congrArg some (Except.ok.inj h)

theorem GN.iterate_spec {g : GN α δ} {lsmr : LsmrObject α δ} {tol : GNTol α} {st st' : GNState α} (hg : st.Good g)
    (h : g.iterate lsmr tol st = .ok st') :
    st'.Good g ∧ ∃ line, st'.log = st.log ++ [line] ∧ g.Step lsmr tol (st.xyza, st.solution) line (st'.xyza, st'.solution) := by
  unfold GN.iterate at h
  obtain ⟨s, h1, h⟩ := bind_ok.1 h
  obtain ⟨z, hz, h⟩ := bind_ok.1 h
  obtain ⟨d, h2, h⟩ := bind_ok.1 h
  obtain ⟨y, h3, h⟩ := bind_ok.1 h
  obtain ⟨f', h4, h⟩ := bind_ok.1 h
  obtain ⟨grad, h5, h⟩ := bind_ok.1 h
  obtain ⟨nd, h6, h⟩ := bind_ok.1 h
  obtain ⟨nx, h7, h⟩ := bind_ok.1 h
  obtain ⟨ng, h8, h⟩ := bind_ok.1 h
  rw [pure_ok] at h
  subst h
  refine ⟨⟨h4, sqNorm_dotp _, by simp [hg.niter], ⟨by simp, fun _ => by rw [← sqNorm_dotp]⟩, ?_⟩, _, rfl, ?_⟩
  · simp only [List.getLast?_concat, Option.some.injEq, exists_eq_left']
    simp [GNLogLine.Met, and_assoc]
  · refine ⟨st.residuals, z, d, f', grad, nx, hg.res, by rw [← needArray_ok hz]; exact h1, needArray_ok hz, h2, h3, h4, h5, ?_, ?_, infNorm_spec h6, infNorm_spec h7, rfl, infNorm_spec h8, ?_⟩
    · simp only [sqNorm_dotp, hg.prev]
    · simp only [sqNorm_dotp]
    · simp only [sqNorm_dotp]

theorem GN.loop_spec {g : GN α δ} {lsmr : LsmrObject α δ} {tol : GNTol α} : ∀ {k : Nat} {st st' : GNState α}, st.Good g →
    g.loop lsmr tol k st = .ok st' →
    st'.Good g ∧ ∃ new, st'.log = st.log ++ new ∧ g.Steps lsmr tol (st.xyza, st.solution) new (st'.xyza, st'.solution) ∧ new.length ≤ k ∧
      (st.conv = true → new = []) ∧ (∀ (i : Nat) (line : GNLogLine α), new[i]? = some line → i + 1 < new.length → ¬ line.Met) ∧
      (st'.conv = false → new.length = k) := by
  intro k
  induction k with
  | zero =>
    intro st st' hg h
    unfold GN.loop at h
    rw [pure_ok] at h
    subst h
    exact ⟨hg, [], by simp, rfl, le_rfl, fun _ => rfl, by simp, fun _ => rfl⟩
  | succ k ih =>
    intro st st' hg h
    unfold GN.loop at h
    by_cases hc : st.conv = true
    · rw [if_pos hc, pure_ok] at h
      subst h
      exact ⟨hg, [], by simp, rfl, by simp, fun _ => rfl, by simp, fun hf => by rw [hc] at hf; cases hf⟩
    · rw [if_neg hc] at h
      obtain ⟨s1, h1, h⟩ := bind_ok.1 h
      obtain ⟨hg1, line, hl1, hs1⟩ := GN.iterate_spec hg h1
      obtain ⟨hg', new, hl2, hs2, hle, hcn, hmet, hfull⟩ := ih hg1 h
      refine ⟨hg', line :: new, by rw [hl2, hl1]; simp, ⟨_, hs1, hs2⟩, by simpa using hle, fun e => absurd e hc, ?_, fun e => by simp [hfull e]⟩
      intro i l hi hlt
      rcases i with _ | i
      · simp only [List.getElem?_cons_zero, Option.some.injEq] at hi
        subst hi
        intro hm
        have : s1.conv = true := hg1.conv.2 ⟨line, by rw [hl1]; simp, hm⟩
        rw [hcn this] at hlt
        simp at hlt
      · simp only [List.getElem?_cons_succ] at hi
        exact hmet i l hi (by simp at hlt; omega)

/-- **C32.** A finished run is a sequence of Gauss-Newton steps from the starting estimate, at least one and at most as many as there are variables;
no step but the last met all three tests of convergence; the run counts as converged exactly when the last step met them, and otherwise used
all the iterations; the parameters and the cost returned belong to the last estimate. -/
theorem C32_loop {g : GN α δ} {lsmr : LsmrObject α δ} {minres : GN α δ → List α → Py (List α)} {tol : GNTol α} {rc : Bool} {res : GNResult α}
    (h : g.run lsmr minres tol rc = .ok res) :
    ∃ N_var f, g.hd.mu.idx.idx.getLast? = some N_var ∧ g.Steps lsmr tol (g.xyza, none) res.state.log (res.state.xyza, res.state.solution) ∧ res.state.niter = res.state.log.length ∧
      1 ≤ res.state.niter ∧ res.state.niter ≤ N_var ∧
      (∀ (i : Nat) (line : GNLogLine α), res.state.log[i]? = some line → i + 1 < res.state.log.length → ¬ line.Met) ∧
      (res.state.conv = true ↔ ∃ line, res.state.log.getLast? = some line ∧ line.Met) ∧
      (res.state.conv = false → res.state.niter = N_var) ∧
      res.a = res.state.xyza.drop N_var ∧ g.calcF res.state.xyza = .ok f ∧ res.cost = dotp f f := by
  unfold GN.run at h
  obtain ⟨N_mu, h1, h⟩ := bind_ok.1 h
  obtain ⟨N_var, h2, h⟩ := bind_ok.1 h
  obtain ⟨r0, h3, h⟩ := bind_ok.1 h
  obtain ⟨st, h4, h⟩ := bind_ok.1 h
  have hg0 : GNState.Good g { xyza := g.xyza, residuals := r0, cost_previous := sqNorm r0, cost := none, conv := false, niter := 0, log := [], solution := none } :=
    ⟨h3, sqNorm_dotp _, rfl, ⟨fun _ => rfl, by simp⟩, by simp⟩
  obtain ⟨hg, new, hl, hs, hle, _, hmet, hfull⟩ := GN.loop_spec hg0 h4
  simp only [List.nil_append] at hl
  obtain ⟨V, h5, h⟩ := bind_ok.1 h
  obtain ⟨rv, h6, h⟩ := bind_ok.1 h
  obtain ⟨n_uS, h7, h⟩ := bind_ok.1 h
  obtain ⟨sens, h8, h⟩ := bind_ok.1 h
  obtain ⟨cost, h9, h⟩ := bind_ok.1 h
  rw [pure_ok] at h
  subst h
  have hne : st.log ≠ [] := by
    intro e
    rw [hg.cost.1 e] at h9
    cases h9
  rw [hg.cost.2 hne] at h9
  cases h9
  have hlast : g.hd.mu.idx.idx.getLast? = some N_var := by
    unfold pyLast at h2
    rw [pyGet_ok] at h2
    rw [List.getLast?_eq_getElem?, h2]
  have hpos : 1 ≤ st.log.length := by
    rcases hll : st.log with _ | ⟨a, b⟩
    · exact absurd hll hne
    · simp
  refine ⟨N_var, st.residuals, hlast, by rw [hl]; exact hs, hg.niter, by rw [hg.niter]; exact hpos, by rw [hg.niter, hl]; exact hle, by rw [hl]; exact hmet,
    hg.conv, fun e => by rw [hg.niter, hl]; exact hfull e, rfl, hg.res, rfl⟩

/-- Without variables there is no iteration, and no result: `cost` is never assigned. -/
theorem C32_no_variables {g : GN α δ} {lsmr : LsmrObject α δ} {minres : GN α δ → List α → Py (List α)} {tol : GNTol α} {rc : Bool} (h0 : g.hd.mu.idx.idx.getLast? = some 0) :
    ∀ res, g.run lsmr minres tol rc ≠ .ok res := by
  intro res h
  obtain ⟨N, f, h1, _, _, h2, h3, _⟩ := C32_loop h
  rw [h0] at h1; cases h1
  omega

theorem npZip_length {f : α → α → α} {a b c : List α} (h : npZip f a b = .ok c) (ha : a.length ≠ 1) : c.length = a.length := by
  unfold npZip at h
  split at h
  · cases h; simp_all
  · split at h
    · simp at ha
    · cases h; simp
    · cases h

theorem GN.Steps.length {g : GN α δ} {lsmr : LsmrObject α δ} {tol : GNTol α} : ∀ {x : List α × Option (List α)} {ls : List (GNLogLine α)}
    {y : List α × Option (List α)}, g.Steps lsmr tol x ls y → x.1.length ≠ 1 → y.1.length = x.1.length
  | _, [], _, h, _ => by cases h; rfl
  | _, _ :: _, _, ⟨_, ⟨_, _, _, _, _, _, _, _, _, _, h, _⟩, hs⟩, hx => by
    have h1 := npZip_length h hx
    rw [hs.length (by omega), h1]

theorem sysSensors_spec {x : Idx} {unc : List (UncBlock α)} {n : Nat} {l : List String} (h : sysSensors x unc n = .ok l) :
    l.length = n ∧ ∀ k, k < n → ∃ (b s : Nat) (name : String) (u : UncBlock α), unc[b]? = some u ∧ u.uS_i = some (k + 1) ∧ (u.unc.typeID = 2 ∨ u.unc.typeID = 4) ∧
      x.n_sensor[b]? = some s ∧ x.sensors[s]? = some name ∧ l[k]? = some name := by
  unfold sysSensors at h
  obtain ⟨q, hq, h⟩ := bind_ok.1 h
  obtain ⟨hl, hg⟩ := mapM_ok_get h
  refine ⟨by rw [hl]; simp, fun k hk => ?_⟩
  obtain ⟨name, h1, h2⟩ := hg k k (by rw [List.getElem?_range hk])
  obtain ⟨b, hb, h1⟩ := bind_ok.1 h1
  obtain ⟨s, hs, h1⟩ := bind_ok.1 h1
  have hqb := pyIndex_ok hb
  obtain ⟨hql, hqg⟩ := mapM_ok_get hq
  have hbl : b < unc.length := by rw [← hql]; exact (List.getElem?_eq_some_iff.1 hqb).1
  obtain ⟨v, hv, hv2⟩ := hqg b _ (List.getElem?_eq_getElem hbl)
  rw [hqb] at hv2
  cases hv2
  refine ⟨b, s, name, unc[b], List.getElem?_eq_getElem hbl, ?_, ?_, pyGet_ok.1 hs, pyGet_ok.1 h1, h2⟩
  · by_cases ht : (unc[b].unc.typeID == 2 || unc[b].unc.typeID == 4) = true
    · rw [if_pos ht] at hv
      split at hv
      · rename_i i hi; rw [hi]; cases hv; rfl
      · cases hv
    · rw [if_neg ht] at hv; cases hv
  · by_cases ht : (unc[b].unc.typeID == 2 || unc[b].unc.typeID == 4) = true
    · simpa using ht
    · rw [if_neg ht] at hv; cases hv

/-- **C33.** For match-ups opened from files: when no block has a systematic effect the run returns no systematic errors. Otherwise it returns one error
and one sensor name per effect: the error and the name at the position of an effect's number are those of every block subject to the effect, that is, the
name is the name of the block's sensor, and the fitted data of the block contain that error times the block's systematic uncertainty. -/
theorem C33_systematic_errors [DecidableEq α] {env : ReadEnv α δ} {dflt : AdjModel α} {ds : List (Dataset α)} (hc : ConsistentFiles ds)
    (hcol : ∀ d ∈ ds, 1 ≤ d.s1.m ∨ 1 ≤ d.s2.m) {sd : SensorData α (SensorModel α δ) (AdjModel α)} {ms : Evaluable α δ}
    (h : openMatchUpWith env dflt ds sd = .ok ms) {g : GN α δ} (hn : ms.normalise = .ok g.hd)
    (hx : g.xyza.length = g.hd.mu.values.length + g.hd.a.length) (hx2 : 2 ≤ g.xyza.length)
    {lsmr : LsmrObject α δ} {minres : GN α δ → List α → Py (List α)} {tol : GNTol α} {rc : Bool} {res : GNResult α} (hr : g.run lsmr minres tol rc = .ok res) :
    ∃ n, (∀ k, (∃ u ∈ ms.mu.unc, u.uS_i = some k) ↔ 1 ≤ k ∧ k ≤ n) ∧
      (n = 0 → res.systematic_errors = none ∧ res.systematic_error_sensors = none) ∧
      (0 < n → ∃ es ss, res.systematic_errors = some es ∧ res.systematic_error_sensors = some ss ∧ es.length = n ∧ ss.length = n ∧
        ∀ (b k : Nat) (u : UncBlock α), ms.mu.unc[b]? = some u → u.uS_i = some k →
          (∃ s name, ms.mu.idx.n_sensor[b]? = some s ∧ ms.mu.idx.sensors[s]? = some name ∧ ss[k - 1]? = some name) ∧
          ∀ est, transformReverse { g.hd.mu with values := res.state.xyza.take g.hd.mu.values.length } = .ok est →
            ∀ (i start : Nat) (v : List α) (e : α), est.BlockAt b v → i < v.length → g.hd.mu.idx.idx[b]? = some start → es[k - 1]? = some e →
              (∀ (uR uS : List α) (y r s : α), u.unc = .systematic uR uS → uR.length = v.length → uS.length = v.length →
                res.state.xyza[start + i]? = some y → start + i < g.hd.mu.values.length → uR[i]? = some r → uS[i]? = some s → v[i]? = some (y * r + e * s)) ∧
              (∀ (w_i u_i : Nat) (uS : α) (w : CSR α) (uv : List α), u.unc = .structuredSystematic w_i u_i uS →
                ms.mu.w_matrices[w_i]? = some (some w) → ms.mu.u_matrices[u_i]? = some (some uv) → w.nrows = v.length → uv.length = w.ncols → w.Shape →
                v[i]? = some ((w.rowEntries i).map fun en =>
                  en.2 * ((res.state.xyza.take g.hd.mu.values.length).getD (start + en.1) 0 * uv.getD en.1 0 + e * uS)).sum)) := by
  obtain ⟨mu, e0, hmu, _, hms⟩ := openMatchUpWith_inv h
  have hwf := opened_wellLaid env ds hc hcol mu hmu
  obtain ⟨hor, hnum, _, ⟨n, hcount⟩, hsame⟩ := opened_numbered env ds hc mu hmu
  have hwf' : ms.mu.WF := by
    rw [hms]
    exact ⟨⟨hwf.idx.bounds, hwf.idx.series, hwf.idx.len, hwf.idx.block, hwf.idx.all⟩, hwf.values, hwf.unc, hwf.ks, hwf.unck⟩
  have hor' : ms.mu.original_idx = ms.mu.idx := by rw [hms]
  have hunc : ms.mu.unc = mu.unc := by rw [hms]
  have hse : ms.mu.idx.n_sensor = mu.idx.n_sensor := by rw [hms]; rfl
  have hcv : ms.mu.idx.n_cov = mu.idx.n_cov := by rw [hms]; rfl
  rw [← hunc] at hnum hcount hsame
  rw [← hse, ← hcv] at hsame
  obtain ⟨nm, hrun, hhd⟩ := normalise_ok hn
  have hgm : g.hd.mu = nm := by rw [hhd]
  obtain ⟨slot, s0, s1, _, _, s4⟩ := C26_systematic_slots hwf' hor' hrun n hnum hcount hsame
  obtain ⟨N, n', hf⟩ := transformRun_facts hwf' hrun
  obtain ⟨r1, r2, r3⟩ := hf.reads
  have hnn : n' = n := by
    obtain ⟨t1, t2⟩ := sysNums_ok hf.sys
    rcases t2 with t2 | ⟨u, hu, _, hk⟩
    · subst t2
      by_contra hne
      obtain ⟨u, hu, hk⟩ := (hcount n).2 ⟨by omega, le_rfl⟩
      obtain ⟨k, h1, h2⟩ := t1 u hu ((hnum u hu).1 (by rw [hk]; simp))
      rw [hk] at h1; cases h1; omega
    · have h1 := (hcount n').1 ⟨u, hu, hk⟩
      obtain ⟨u2, hu2, hk2⟩ := (hcount n).2 ⟨by omega, le_rfl⟩
      obtain ⟨k, h3, h4⟩ := t1 u2 hu2 ((hnum u2 hu2).1 (by rw [hk2]; simp))
      rw [hk2] at h3; cases h3; omega
  subst hnn
  obtain ⟨N_var, f, hlast, hsteps, _⟩ := C32_loop hr
  have hfin : res.state.xyza.length = g.xyza.length := hsteps.length (by show g.xyza.length ≠ 1; omega)
  have hNv : N_var = N.sum + n' := by
    rw [List.getLast?_eq_getElem?, hgm, r3] at hlast
    exact (Option.some.inj hlast).symm
  unfold GN.run at hr
  obtain ⟨N_mu, h1, hr⟩ := bind_ok.1 hr
  obtain ⟨N_var', h2, hr⟩ := bind_ok.1 hr
  have : N_var' = N_var := by
    unfold pyLast at h2
    rw [pyGet_ok, ← List.getLast?_eq_getElem?, hlast] at h2
    exact (Option.some.inj h2).symm
  subst this
  obtain ⟨r0, h3, hr⟩ := bind_ok.1 hr
  obtain ⟨st, h4, hr⟩ := bind_ok.1 hr
  obtain ⟨V, h5, hr⟩ := bind_ok.1 hr
  obtain ⟨rv, h6, hr⟩ := bind_ok.1 hr
  obtain ⟨n_uS, h7, hr⟩ := bind_ok.1 hr
  obtain ⟨sens, h8, hr⟩ := bind_ok.1 hr
  obtain ⟨cost, h9, hr⟩ := bind_ok.1 hr
  rw [pure_ok] at hr
  subst hr
  rw [hgm, hf.unc, hf.sys] at h7
  cases h7
  unfold GN.runSystematic at h8
  refine ⟨n', hcount, ?_, ?_⟩
  · intro h0
    rw [if_pos h0] at h8
    cases h8
    exact ⟨rfl, rfl⟩
  · intro h0
    rw [if_neg (by omega)] at h8
    obtain ⟨ss, h10, hp⟩ := bind_ok.1 h8
    rw [pure_ok] at hp
    subst hp
    simp only at hfin
    obtain ⟨q1, q2⟩ := sysSensors_spec h10
    have hvl : g.hd.mu.values.length = N.sum + n' := by rw [hgm]; exact hf.vlen
    have hel : ∀ j, j < n' → (slice st.xyza (N_var' - n') N_var')[j]? = st.xyza[N.sum + j]? := by
      intro j hj
      rw [slice_getElem?, if_pos (by omega)]
      congr 1; omega
    refine ⟨_, ss, rfl, rfl, by rw [slice_length]; simp only; omega, q1, ?_⟩
    intro b k u hu hk
    have hmem := List.mem_of_getElem? hu
    have hkr := (hcount k).1 ⟨u, hmem, hk⟩
    constructor
    · obtain ⟨b', s, name, u', e1, e2, e3, e4, e5, e6⟩ := q2 (k - 1) (by omega)
      rw [hgm, hf.unc] at e1
      rw [hgm, hf.idx] at e4 e5
      simp only at e4 e5
      have := (hsame b b' u u' k (k - 1 + 1) hu e1 hk e2).1 (by omega)
      exact ⟨s, name, by rw [this.1]; exact e4, e5, e6⟩
    · intro est hest i start v e hv hi hst he
      rw [hel _ (by omega)] at he
      have hsl : (st.xyza.take g.hd.mu.values.length)[slot b]? = some e := by
        rw [s0 b k u hu hk, r2, List.getElem?_take_of_lt (by omega)]
        exact he
      rw [hgm] at hest hst hsl
      obtain ⟨z1, z2⟩ := s4 (st.xyza.take nm.values.length) est (by rw [List.length_take, hfin, hx, hgm]; omega) hest b i start u v e hu hv hi hst hsl
      refine ⟨?_, ?_⟩
      · intro uR uS y r s hun hlR hlS hy hlt hr' hs
        rw [hgm] at hlt
        exact z1 uR uS y r s hun hlR hlS (by rw [List.getElem?_take_of_lt hlt]; exact hy) hr' hs
      · intro w_i u_i uS w uv a1 a2 a3 a4 a5 a6
        rw [hgm]
        exact z2 w_i u_i uS w uv a1 a2 a3 a4 a5 a6

/-! ### C34 -/

theorem calcF_length {g : GN α δ} {N_mu N_var : Nat} (h1 : pyLast g.hd.mu.idx.cNm = .ok N_mu) (h2 : pyLast g.hd.mu.idx.idx = .ok N_var) {x f : List α}
    (h : g.calcF x = .ok f) : f.length = N_var + N_mu := by
  unfold GN.calcF at h
  rw [h1] at h
  obtain ⟨_, e, h⟩ := bind_ok.1 h; cases e
  rw [h2] at h
  obtain ⟨_, e, h⟩ := bind_ok.1 h; cases e
  obtain ⟨d, _, h⟩ := bind_ok.1 h
  obtain ⟨f0, e1, h⟩ := bind_ok.1 h
  obtain ⟨est, _, h⟩ := bind_ok.1 h
  obtain ⟨k0, _, h⟩ := bind_ok.1 h
  obtain ⟨k1, _, h⟩ := bind_ok.1 h
  obtain ⟨dk, _, h⟩ := bind_ok.1 h
  have l0 := (setSlice_get e1 (by omega) (by simp)).1
  rw [List.length_replicate] at l0
  have l1 := (setSlice_get h (by omega) le_rfl).1
  rw [l1, l0]

/-- **C34 (what the code reports).** The number reported is the number of variables minus match-ups minus parameters; it equals the number of residuals
minus the number of unknowns exactly when there are twice as many variables as match-ups. -/
theorem C34_reported_dof_partial {ms : Evaluable α δ} {labels clabels : List String} {m : Nat} (h : ms.SolverReady labels clabels m) {g : GN α δ} (hg : g.Solves ms)
    (hx2 : 2 ≤ g.xyza.length)
    {lsmr : LsmrObject α δ} {minres : GN α δ → List α → Py (List α)} {tol : GNTol α} {rc : Bool} {res : GNResult α} (hr : g.run lsmr minres tol rc = .ok res) :
    ∃ f, g.calcF res.state.xyza = .ok f ∧
      res.dof = (g.hd.mu.values.length : Int) - g.hd.mu.ks.length - g.hd.a.length ∧
      f.length = g.hd.mu.values.length + g.hd.mu.ks.length ∧ res.state.xyza.length = g.hd.mu.values.length + g.hd.a.length ∧
      (res.dof = (f.length : Int) - res.state.xyza.length ↔ g.hd.mu.values.length = 2 * g.hd.mu.ks.length) := by
  obtain ⟨N_var, f, hlast, hsteps, _, _, _, _, _, _, _, hf, _⟩ := C32_loop hr
  have hfin : res.state.xyza.length = g.xyza.length := hsteps.length (by show g.xyza.length ≠ 1; omega)
  obtain ⟨N, n, hs⟩ := hg.setup h
  obtain ⟨s1, s2, s3⟩ := hs.sizes
  unfold GN.run at hr
  obtain ⟨N_mu, h1, hr⟩ := bind_ok.1 hr
  obtain ⟨N_var', h2, hr⟩ := bind_ok.1 hr
  obtain ⟨r0, h3, hr⟩ := bind_ok.1 hr
  obtain ⟨st, h4, hr⟩ := bind_ok.1 hr
  obtain ⟨V, h5, hr⟩ := bind_ok.1 hr
  obtain ⟨rv, h6, hr⟩ := bind_ok.1 hr
  obtain ⟨n_uS, h7, hr⟩ := bind_ok.1 hr
  obtain ⟨sens, h8, hr⟩ := bind_ok.1 hr
  obtain ⟨cost, h9, hr⟩ := bind_ok.1 hr
  rw [pure_ok] at hr
  have hl := calcF_length h1 h2 hf
  have e1 := hs.mu_eq
  have e2 := hs.var_eq
  rw [h1] at e1
  rw [h2] at e2
  cases e1; cases e2
  have hd : res.dof = ((N.sum + n : Nat) : Int) - (ms.mu.idx.Nm.sum : Nat) - (g.hd.a.length : Nat) := by rw [← hr]
  refine ⟨f, hf, by rw [hd, s1, s3], by rw [hl, s1, s3], by rw [hfin, hs.xlen, s1, s2], ?_⟩
  rw [hd, hl, hfin, hs.xlen, s1, s2, s3]
  omega

/-! ### C36 -/

theorem foldlM_mem_ok {β γ : Type} {f : β → γ → Py β} : ∀ {l : List γ} {b r : β}, l.foldlM f b = .ok r → ∀ x ∈ l, ∃ b' r', f b' x = .ok r'
  | y :: l, b, r, h, x, hx => by
    rw [List.foldlM_cons] at h
    obtain ⟨b1, h1, h⟩ := bind_ok.1 h
    rcases List.mem_cons.1 hx with rfl | hx
    · exact ⟨b, b1, h1⟩
    · exact foldlM_mem_ok h x hx

/-- When a sensor of a pair has derivatives but no block for one of the covariates up to the last covariate number, no product is computed. -/
theorem prod_missing_block {g : GN α δ} {i s c N_cov : Nat} {pair : Nat × Nat} {f : SensorModel α δ} (hp : g.hd.mu.idx.Im[i]? = some pair)
    (hs : s = pair.1 ∨ s = pair.2) (hf : g.hd.sensor_model[s]? = some f)
    (hder : ∀ X a k xt al t R J, f X a k xt al t = .ok (R, J) → J ≠ none) (hN : g.hd.mu.idx.n_cov.getLast? = some N_cov) (hc : c < N_cov)
    (hno : (s, i + 1, c + 1) ∉ g.hd.mu.idx.blocks) (t : Bool) (x u : List α) : g.prod t x ≠ .ok u := by
  intro h
  unfold GN.prod at h
  obtain ⟨N_mu, _, h⟩ := bind_ok.1 h
  obtain ⟨ctx, hctx, h⟩ := bind_ok.1 h
  have hNc : ctx.N_cov = N_cov := by
    unfold GN.prodCtx at hctx
    obtain ⟨_, _, hctx⟩ := bind_ok.1 hctx
    obtain ⟨_, _, hctx⟩ := bind_ok.1 hctx
    obtain ⟨nc, hnc, hctx⟩ := bind_ok.1 hctx
    obtain ⟨_, _, hctx⟩ := bind_ok.1 hctx
    rw [pure_ok] at hctx
    subst hctx
    unfold pyLast at hnc
    rw [pyGet_ok, ← List.getLast?_eq_getElem?, hN] at hnc
    exact (Option.some.inj hnc).symm
  have key : ∀ (x out out' : List α), g.hd.mu.idx.Im.zipIdx.foldlM (g.prodSeries t ctx x) out ≠ .ok out' := by
    intro x out out' h
    obtain ⟨b, r, h⟩ := foldlM_mem_ok h (pair, i) (List.mem_iff_getElem?.2 ⟨i, by rw [List.getElem?_zipIdx, hp]; simp⟩)
    have hside : ∃ rows uK sg out out', g.prodSide t ctx x rows uK (i + 1) sg s out = .ok out' := by
      unfold GN.prodSeries at h
      obtain ⟨lo, _, h⟩ := bind_ok.1 h
      obtain ⟨hi, _, h⟩ := bind_ok.1 h
      obtain ⟨uK, _, h⟩ := bind_ok.1 h
      obtain ⟨o1, h1, h2⟩ := bind_ok.1 h
      rcases hs with rfl | rfl
      · exact ⟨_, _, _, _, _, h1⟩
      · exact ⟨_, _, _, _, _, h2⟩
    obtain ⟨rows, uK, sg, o, o', hside⟩ := hside
    unfold GN.prodSide at hside
    obtain ⟨name, _, hside⟩ := bind_ok.1 hside
    obtain ⟨xt, _, hside⟩ := bind_ok.1 hside
    obtain ⟨al, _, hside⟩ := bind_ok.1 hside
    obtain ⟨tm, _, hside⟩ := bind_ok.1 hside
    obtain ⟨R, hR, hside⟩ := bind_ok.1 hside
    obtain ⟨B, _, hside⟩ := bind_ok.1 hside
    obtain ⟨JB, _, hside⟩ := bind_ok.1 hside
    have hne : R.2 ≠ none := by
      unfold GN.calcR at hR
      obtain ⟨_, _, hR⟩ := bind_ok.1 hR
      obtain ⟨_, _, hR⟩ := bind_ok.1 hR
      obtain ⟨_, _, hR⟩ := bind_ok.1 hR
      obtain ⟨_, _, hR⟩ := bind_ok.1 hR
      obtain ⟨_, _, hR⟩ := bind_ok.1 hR
      obtain ⟨f', hf', hR⟩ := bind_ok.1 hR
      rw [pyGet_ok, hf] at hf'
      cases hf'
      exact hder _ _ _ _ _ _ _ _ hR
    split at hside
    · rename_i hn; exact hne hn
    · obtain ⟨o1, h1, _⟩ := bind_ok.1 hside
      obtain ⟨b, r, h1⟩ := foldlM_mem_ok h1 c (List.mem_range.2 (by omega))
      unfold GN.covTerm at h1
      obtain ⟨im, h2, _⟩ := bind_ok.1 h1
      exact hno (List.mem_of_getElem? (pyIndex_ok h2))
  cases t
  · simp only [Bool.false_eq_true, if_false] at h
    obtain ⟨x', _, h⟩ := bind_ok.1 h
    obtain ⟨out, _, h⟩ := bind_ok.1 h
    obtain ⟨out', h1, _⟩ := bind_ok.1 h
    exact key _ _ _ h1
  · simp only [if_true] at h
    obtain ⟨x', _, h⟩ := bind_ok.1 h
    obtain ⟨out, _, h⟩ := bind_ok.1 h
    obtain ⟨out', h1, _⟩ := bind_ok.1 h
    exact key _ _ _ h1

/-- **C36, where it fails.** When two sensors in the files have different numbers of columns and the model of the sensor with fewer columns returns
derivatives (the sensor is calibrated), no Jacobian product can be computed, and no run returns. -/
theorem C36_fewer_covariates_fail [DecidableEq α] {env : ReadEnv α δ} {dflt : AdjModel α} {ds : List (Dataset α)} (hc : ConsistentFiles ds)
    {sd : SensorData α (SensorModel α δ) (AdjModel α)} (hk : (sd.map (·.1)).Nodup) {ms : Evaluable α δ} (h : openMatchUpWith env dflt ds sd = .ok ms)
    {g : GN α δ} (hn : ms.normalise = .ok g.hd) {d d' : Dataset α} {s s' : Side α} (hd : d ∈ ds) (hs : d.HasSide s) (hd' : d' ∈ ds) (hs' : d'.HasSide s')
    (hlt : s.m < s'.m)
    (hder : ∀ e, (s.name, e) ∈ sd → ∀ X a k xt al t R J, e.model X a k xt al t = .ok (R, J) → J ≠ none) :
    (∀ x u, g.getJPx x ≠ .ok u) ∧ (∀ x u, g.getJPTx x ≠ .ok u) ∧
    ∀ (lsmr : LsmrObject α δ) (minres : GN α δ → List α → Py (List α)) (tol : GNTol α) (rc : Bool) (res : GNResult α), g.run lsmr minres tol rc ≠ .ok res := by
  obtain ⟨mu, e, hmu, hex, hms⟩ := openMatchUpWith_inv h
  obtain ⟨x, mx, hx, hi⟩ := getIdx_facts (openMatchUp_nonempty hmu)
  obtain ⟨x', hx', _, _, _, _, _, _, _, _, _, _, _, hidx, _⟩ := openMatchUp_inv hmu
  rw [hx] at hx'; cases hx'
  obtain ⟨nm, hrun, hhd⟩ := normalise_ok hn
  have hgi : g.hd.mu.idx.Im = x.Im ∧ g.hd.mu.idx.n_cov = x.n_cov ∧ g.hd.mu.idx.blocks = x.blocks ∧ g.hd.sensor_model = e.sensor_model := by
    have hgm : g.hd.mu = nm := by rw [hhd]
    have hidx2 : nm.idx.Im = ms.mu.idx.Im ∧ nm.idx.n_cov = ms.mu.idx.n_cov ∧ nm.idx.blocks = ms.mu.idx.blocks := by
      unfold transformRun at hrun
      obtain ⟨_, _, hrun⟩ := bind_ok.1 hrun
      obtain ⟨_, _, hrun⟩ := bind_ok.1 hrun
      obtain ⟨_, _, hrun⟩ := bind_ok.1 hrun
      obtain ⟨_, _, hrun⟩ := bind_ok.1 hrun
      obtain ⟨_, _, hrun⟩ := bind_ok.1 hrun
      rw [pure_ok] at hrun
      subst hrun
      exact ⟨rfl, rfl, rfl⟩
    rw [hgm, hidx2.1, hidx2.2.1, hidx2.2.2, hms, hhd]
    refine ⟨?_, ?_, ?_, by rw [hms]⟩
    · show mu.idx.Im = x.Im; rw [hidx]
    · show mu.idx.n_cov = x.n_cov; rw [hidx]
    · show mu.idx.blocks = x.blocks; rw [hidx]; rfl
  obtain ⟨g1, g2, g3, g4⟩ := hgi
  have hsm := mem_sides.2 ⟨d, hd, hs⟩
  have hlook := hi.sens_lookup hsm
  obtain ⟨_, _, _, _, _, _, c7⟩ := C12_extraction dflt sd hk mu.idx.sensors e hex
  obtain ⟨i, hdi⟩ := List.mem_iff_getElem?.1 hd
  obtain ⟨i', hdi'⟩ := List.mem_iff_getElem?.1 hd'
  have hmem : (x.sensors.idxOf s'.name, i' + 1, s'.m) ∈ x.blocks :=
    (hi.mem_blocks hc).2 ⟨by omega, by omega, d', s', by simpa using hdi', hs', rfl, le_rfl⟩
  have hncov : x.n_cov = x.blocks.map (·.2.2) := by rw [hi.n_cov, hi.blocks]
  obtain ⟨N_cov, hN, hle⟩ : ∃ N_cov, x.n_cov.getLast? = some N_cov ∧ s'.m ≤ N_cov := by
    have hne : x.blocks ≠ [] := by intro h0; rw [h0] at hmem; cases hmem
    refine ⟨_, by rw [hncov, List.getLast?_map, List.getLast?_eq_some_getLast hne, Option.map_some], ?_⟩
    have hsorted : x.blocks.Pairwise fun a b => a.2.2 ≤ b.2.2 := by rw [hi.blocks]; exact blockList_sorted _ _ _
    obtain ⟨j, hj⟩ := List.mem_iff_getElem?.1 hmem
    obtain ⟨hjl, hje⟩ := List.getElem?_eq_some_iff.1 hj
    rw [List.getLast_eq_getElem]
    rcases Nat.lt_or_ge j (x.blocks.length - 1) with hlt | hge
    · have := List.pairwise_iff_getElem.1 hsorted j (x.blocks.length - 1) hjl (by omega) hlt
      rw [hje] at this
      exact this
    · have hj' : j = x.blocks.length - 1 := by omega
      subst hj'
      rw [hje]
  have hno : (x.sensors.idxOf s.name, i + 1, s.m + 1) ∉ x.blocks := by
    intro hb
    obtain ⟨_, _, d2, t, hd2, ht, hne, hle⟩ := (hi.mem_blocks hc).1 hb
    have htm := mem_sides.2 ⟨d2, List.mem_of_getElem? hd2, ht⟩
    have h1 := hi.sens_lookup htm
    rw [← hne, hlook] at h1
    have hnm : t.name = s.name := (Option.some.inj h1).symm
    have e1 := hi.ms_eq hc htm
    have e2 := hi.ms_eq hc hsm
    rw [hnm] at e1
    omega
  obtain ⟨en, hen, hmod⟩ := c7 (x.sensors.idxOf s.name) s.name (by rw [show mu.idx.sensors = x.sensors by rw [hidx]]; exact hlook)
  have hp : x.Im[i]? = some (x.sensors.idxOf d.s1.name, x.sensors.idxOf d.s2.name) := by rw [hi.Im, List.getElem?_map, hdi]; rfl
  have hfail := fun t (x' u : List α) => prod_missing_block (g := g) (c := s.m) (by rw [g1]; exact hp)
    (show x.sensors.idxOf s.name = _ ∨ _ by rcases hs with rfl | rfl <;> simp) (by rw [g4]; exact hmod) (hder en hen) (by rw [g2]; exact hN) (by omega)
    (by rw [g3]; exact hno) t x' u
  refine ⟨hfail false, hfail true, ?_⟩
  intro lsmr minres tol rc res hr
  obtain ⟨N_var, f, _, hsteps, hnit, h1, _⟩ := C32_loop hr
  rcases hl : res.state.log with _ | ⟨l, ls⟩
  · rw [hl] at hnit; simp at hnit; omega
  · rw [hl] at hsteps
    obtain ⟨y, ⟨_, _, _, f', grad, _, _, _, _, _, _, _, hgr, _⟩, _⟩ := hsteps
    have := fun t (x' u : List α) => prod_missing_block (g := { g with xyza := y.1 }) (c := s.m) (by rw [g1]; exact hp)
      (show x.sensors.idxOf s.name = _ ∨ _ by rcases hs with rfl | rfl <;> simp) (by rw [g4]; exact hmod) (hder en hen) (by rw [g2]; exact hN) (by omega)
      (by rw [g3]; exact hno) t x' u
    exact this true f' grad hgr

end

/-! ### C35 -/

/-- What a restart gives: the solver object is built on the match-up opened afresh (with parameters `a`), then the saved state is opened. -/
def GN.restart (ms : Evaluable α δ) (a : List α) (f : GNSaved α) (x : List α) (S : List (List α)) : GN α δ :=
  GN.open { hd := { ms with a := a }, xyza := x, S := S } f

theorem getSensorArray_cases {β γ : Type} (x : Idx) (a1 a2 : Option (List β)) (b1 b2 : Option (List γ)) (n : Nat) (s : String) :
    (∃ e, x.getSensorArray a1 a2 n s = .error e ∧ x.getSensorArray b1 b2 n s = .error e) ∨
    ∃ r r', x.getSensorArray a1 a2 n s = .ok r ∧ x.getSensorArray b1 b2 n s = .ok r' := by
  unfold Idx.getSensorArray
  simp only [bind, Except.bind]
  rcases pyGet x.cNm (n - 1) with e | a
  · exact .inl ⟨e, rfl, rfl⟩
  rcases pyGet x.cNm n with e | b
  · exact .inl ⟨e, rfl, rfl⟩
  rcases pyGet x.Im (n - 1) with e | p
  · exact .inl ⟨e, rfl, rfl⟩
  simp only
  rcases pyGet x.sensors p.1 with e | n1
  · exact .inl ⟨e, rfl, rfl⟩
  rcases pyGet x.sensors p.2 with e | n2
  · exact .inl ⟨e, rfl, rfl⟩
  simp only
  by_cases h1 : s = n1
  · simp only [if_pos h1]; exact .inr ⟨_, _, rfl, rfl⟩
  by_cases h2 : s = n2
  · simp only [if_neg h1, if_pos h2]; exact .inr ⟨_, _, rfl, rfl⟩
  · simp only [if_neg h1, if_neg h2]; exact .inl ⟨_, rfl, rfl⟩

/-- A sensor model which does not use the times. -/
def SensorModel.Timeless (f : SensorModel α δ) : Prop := ∀ X a c xt al t t', f X a c xt al t = f X a c xt al t'

/-- The Jacobian products do not depend on K, on times (if the models do not), on additional data and on the initial parameters. -/
theorem prod_irrelevant (g : GN α δ) (a ks : List α) (t1 t2 : Option (List δ)) (av : Option (List (List α))) (ha : a.length = g.hd.a.length)
    (hm : ∀ f ∈ g.hd.sensor_model, f.Timeless) (t : Bool) (x : List α) :
    GN.prod { g with hd := { g.hd with a := a, mu := { g.hd.mu with ks := ks, time1 := t1, time2 := t2, additional_values := av } } } t x = g.prod t x := by
  set g' : GN α δ := { g with hd := { g.hd with a := a, mu := { g.hd.mu with ks := ks, time1 := t1, time2 := t2, additional_values := av } } } with hg'
  have hpx : ∀ t x, g'.calcPx t x = g.calcPx t x := by
    intro t x
    unfold GN.calcPx
    have : g'.hd.a.length = g.hd.a.length := ha
    rw [this]
  have hside : ∀ ctx x rows uK n sg s out, g'.prodSide t ctx x rows uK n sg s out = g.prodSide t ctx x rows uK n sg s out := by
    intro ctx x rows uK n sg s out
    unfold GN.prodSide
    show (do
      let name ← pyGet g.hd.mu.idx.sensors s
      let xt ← g.hd.mu.getSensorAcrossTrackIndex n name
      let al ← g.hd.mu.getSensorAlongTrackIndex n name
      let tm ← g.hd.mu.idx.getSensorArray t1 t2 n name
      let R ← g.calcR xt al tm s n
      let B ← pyGet g.hd.adjustment_model s
      let JB ← B R.1
      match R.2 with
      | none => g.refTerm t x sg JB.2 uK rows s n out
      | some JR => do
        let out ← (List.range ctx.N_cov).foldlM (g.covTerm t ctx x sg JB.2 uK rows s n JR) out
        g.paramTerm t ctx x sg JB.2 uK rows name JR out) = _
    refine bind_congr fun name => bind_congr fun xt => bind_congr fun al => ?_
    rcases getSensorArray_cases g.hd.mu.idx t1 t2 g.hd.mu.time1 g.hd.mu.time2 n name with ⟨e, h1, h2⟩ | ⟨r, r', h1, h2⟩
    · rw [h1]
      unfold MatchUp.getSensorTime
      rw [h2]
      rfl
    · rw [h1]
      unfold MatchUp.getSensorTime
      rw [h2]
      have : g.calcR xt al r s n = g.calcR xt al r' s n := by
        unfold GN.calcR
        refine bind_congr fun _ => bind_congr fun _ => bind_congr fun _ => bind_congr fun _ => bind_congr fun _ => ?_
        rcases hf : pyGet g.hd.sensor_model s with e | f
        · rfl
        · have hmem := List.mem_of_getElem? (pyGet_ok.1 hf)
          exact hm f hmem _ _ _ _ _ _ _
      simp only [bind, Except.bind, this]
      rfl
  have hser : ∀ ctx x, g'.prodSeries t ctx x = g.prodSeries t ctx x := by
    intro ctx x
    funext out pi
    unfold GN.prodSeries
    simp only [hside]
    rfl
  unfold GN.prod
  simp only [hpx, hser, show g'.hd.a.length = g.hd.a.length from ha]
  rfl

theorem restart_eq {ms : Evaluable α δ} {g : GN α δ} (hn : ms.normalise = .ok g.hd) (a x : List α) (S : List (List α)) :
    GN.restart ms a g.save x S = { g with hd := { g.hd with a := a, mu := { g.hd.mu with ks := ms.mu.ks, time1 := ms.mu.time1, time2 := ms.mu.time2, additional_values := ms.mu.additional_values } } } := by
  obtain ⟨nm, hrun, hhd⟩ := normalise_ok hn
  have h2 : nm = { ms.mu with idx := nm.idx, values := nm.values, ks := nm.ks, time1 := none, time2 := none, additional_values := none } := by
    unfold transformRun at hrun
    obtain ⟨_, _, hrun⟩ := bind_ok.1 hrun
    obtain ⟨_, _, hrun⟩ := bind_ok.1 hrun
    obtain ⟨_, _, hrun⟩ := bind_ok.1 hrun
    obtain ⟨_, _, hrun⟩ := bind_ok.1 hrun
    obtain ⟨_, _, hrun⟩ := bind_ok.1 hrun
    rw [pure_ok] at hrun
    subst hrun
    rfl
  unfold GN.restart GN.open GN.save
  rw [hhd]
  simp only
  rw [h2]

/-- **C35 (the part that holds).** A restarted solver has the saved structure, data, estimate and preconditioner, and all its Jacobian and Hessian products
are those of the saved solver, provided the sensor models do not use times. What is missing: K (see `C35_restart_fails`). -/
theorem C35_restart_partial {ms : Evaluable α δ} {g : GN α δ} (hn : ms.normalise = .ok g.hd) (a x0 : List α) (S0 : List (List α))
    (ha : a.length = g.hd.a.length) :
    let g' := GN.restart ms a g.save x0 S0
    g'.xyza = g.xyza ∧ g'.S = g.S ∧ g'.hd.mu.idx = g.hd.mu.idx ∧ g'.hd.mu.values = g.hd.mu.values ∧ g'.hd.mu.unc = g.hd.mu.unc ∧
    g'.hd.mu.unck = g.hd.mu.unck ∧ g'.hd.mu.w_matrices = g.hd.mu.w_matrices ∧ g'.hd.mu.u_matrices = g.hd.mu.u_matrices ∧
    ((∀ f ∈ ms.sensor_model, f.Timeless) → ∀ x, g'.getJPx x = g.getJPx x ∧ g'.getJPTx x = g.getJPTx x ∧ g'.calcHx x = g.calcHx x) := by
  rw [restart_eq hn]
  refine ⟨rfl, rfl, rfl, rfl, rfl, rfl, rfl, rfl, ?_⟩
  intro hm x
  have hm' : ∀ f ∈ g.hd.sensor_model, f.Timeless := by
    obtain ⟨nm, _, hhd⟩ := normalise_ok hn
    rw [hhd]; exact hm
  have hp := prod_irrelevant g a ms.mu.ks ms.mu.time1 ms.mu.time2 ms.mu.additional_values ha hm'
  refine ⟨hp false x, hp true x, ?_⟩
  unfold GN.calcHx
  simp only [hp]

theorem setSlice_length {l v r : List α} {a b : Nat} (h : setSlice l a b v = .ok r) : r.length = l.length := by
  have hlen : ∀ w : List α, w.length = (slice l a b).length → (l.take a ++ w ++ l.drop (a + (slice l a b).length)).length = l.length := by
    intro w hw
    have : (slice l a b).length = min (b - a) (l.length - a) := by simp [slice]
    simp only [List.length_append, List.length_take, List.length_drop, hw]
    omega
  unfold setSlice at h
  simp only at h
  split at h
  · rename_i hv; cases h; exact hlen v hv
  · split at h
    · cases h; exact hlen _ (by simp)
    · cases h

theorem fillRows_length {x : Idx} {sel : List Nat} {f : Nat → Nat → List α → Py (List α)} {init out : List α × List α} (h : fillRows x sel f init = .ok out) :
    out.1.length = init.1.length ∧ out.2.length = init.2.length := by
  unfold fillRows at h
  generalize sel.zipIdx = l at h
  induction l generalizing init with
  | nil => simp only [List.foldlM_nil, pure_ok] at h; subst h; exact ⟨rfl, rfl⟩
  | cons p l ih =>
    rw [List.foldlM_cons] at h
    obtain ⟨c, hc, h⟩ := bind_ok.1 h
    obtain ⟨_, _, hc⟩ := bind_ok.1 hc
    obtain ⟨_, _, hc⟩ := bind_ok.1 hc
    obtain ⟨_, _, hc⟩ := bind_ok.1 hc
    obtain ⟨_, _, hc⟩ := bind_ok.1 hc
    obtain ⟨c1, h1, hc⟩ := bind_ok.1 hc
    obtain ⟨_, _, hc⟩ := bind_ok.1 hc
    obtain ⟨c2, h2, hc⟩ := bind_ok.1 hc
    rw [pure_ok] at hc
    subst hc
    obtain ⟨e1, e2⟩ := ih h
    exact ⟨by rw [e1]; exact setSlice_length h1, by rw [e2]; exact setSlice_length h2⟩

theorem evaluateK_length {ms : Evaluable α δ} (hwf : ms.mu.idx.WF) {k : List α} (h : evaluateK ms (.num 0) = .ok k) : k.length = ms.mu.idx.Nm.sum := by
  unfold evaluateK at h
  obtain ⟨m, hm, h⟩ := bind_ok.1 h
  unfold evaluateAdjusted at hm
  obtain ⟨m0, hm0, hm⟩ := bind_ok.1 hm
  unfold evaluateMeasurand at hm0
  obtain ⟨n, hn, hm0⟩ := bind_ok.1 hm0
  obtain ⟨a1, a2⟩ := fillRows_length hm0
  obtain ⟨b1, b2⟩ := fillRows_length hm
  simp only [List.length_replicate] at a1 a2
  have hsel : SelArg.series ms.mu.idx (.num 0) = List.range' 1 ms.mu.idx.Nm.length := seriesSet_eq hwf
  have hb : selBounds ms.mu.idx (List.range' 1 ms.mu.idx.Nm.length) = prefixSums ms.mu.idx.Nm := by
    rw [selBounds_eq (List.pairwise_lt_range' ..) (by intro n hn; rw [List.mem_range'_1] at hn; omega)]
    congr 1
    apply List.ext_getElem
    · simp
    · intro i h1 h2
      simp [List.getD, h2]
  rw [hsel, hb, prefixSums_length, Nat.add_sub_cancel, pyGet_prefixSums _ le_rfl, List.take_length] at hn
  cases hn
  rw [npZip_eq (by omega)] at h
  cases h
  rw [List.length_zipWith]
  omega

/-- The residuals of a restarted solver: those of the variables are right, those of K are computed with the K of the files instead of the normalised K. -/
theorem C35_restart_residuals {ms : Evaluable α δ} {labels clabels : List String} {m : Nat} (h : ms.SolverReady labels clabels m) {g : GN α δ}
    (hg : g.Solves ms) (a x0 : List α) (S0 : List (List α)) {x f : List α} (hx : x.length = g.xyza.length) (hf : g.calcF x = .ok f) :
    ∃ f', (GN.restart ms a g.save x0 S0).calcF x = .ok f' ∧ f'.length = f.length ∧
      f'.take g.hd.mu.values.length = f.take g.hd.mu.values.length ∧
      ∀ r, r < g.hd.mu.ks.length → ent f' (g.hd.mu.values.length + r) - ent f (g.hd.mu.values.length + r) = ent g.hd.mu.ks r - ent ms.mu.ks r := by
  obtain ⟨N, n, hs⟩ := hg.setup h
  obtain ⟨s1, s2, s3⟩ := hs.sizes
  have e1 := hs.mu_eq
  have e2 := hs.var_eq
  rw [restart_eq hg.norm]
  unfold GN.calcF at hf ⊢
  obtain ⟨N_mu, h1, hf⟩ := bind_ok.1 hf
  obtain ⟨N_var, h2, hf⟩ := bind_ok.1 hf
  rw [e1] at h1; cases h1
  rw [e2] at h2; cases h2
  obtain ⟨d, h3, hf⟩ := bind_ok.1 hf
  obtain ⟨f0, h4, hf⟩ := bind_ok.1 hf
  obtain ⟨est, h5, hf⟩ := bind_ok.1 hf
  obtain ⟨k0, h6, hf⟩ := bind_ok.1 hf
  obtain ⟨k1, h7, hf⟩ := bind_ok.1 hf
  obtain ⟨dk, h8, hf⟩ := bind_ok.1 hf
  have hei : est.mu.idx = ms.mu.idx := by
    obtain ⟨est', q1, q2, _⟩ := estimate_ok hs (x := x) (by rw [hx, hs.xlen])
    rw [q1] at h5; cases h5
    exact q2
  have hk0 : k0.length = ms.mu.idx.Nm.sum := by rw [evaluateK_length (by rw [hei]; exact h.wf.idx) h6, hei]
  have hk1 : k1.length = k0.length := by
    have : ∀ (l : List Nat) (k k' : List α), l.foldlM (fun ks i => do
        let lo ← pyGet est.mu.idx.cNm i
        let hi ← pyGet est.mu.idx.cNm (i + 1)
        let u ← pyGet est.mu.unck i
        let v ← npZip (· / ·) (slice ks lo hi) u
        setSlice ks lo hi v) k = .ok k' → k'.length = k.length := by
      intro l
      induction l with
      | nil => intro k k' hh; simp only [List.foldlM_nil, pure_ok] at hh; rw [hh]
      | cons p l ih =>
        intro k k' hh
        rw [List.foldlM_cons] at hh
        obtain ⟨c, hc, hh⟩ := bind_ok.1 hh
        obtain ⟨_, _, hc⟩ := bind_ok.1 hc
        obtain ⟨_, _, hc⟩ := bind_ok.1 hc
        obtain ⟨_, _, hc⟩ := bind_ok.1 hc
        obtain ⟨_, _, hc⟩ := bind_ok.1 hc
        rw [ih _ _ hh, setSlice_length hc]
    exact this _ _ _ h7
  have hfl : f0.length = N.sum + n + ms.mu.idx.Nm.sum := by rw [setSlice_length h4]; simp
  rw [npZip_eq (by omega)] at h8
  cases h8
  have hmsk : ms.mu.ks.length = ms.mu.idx.Nm.sum := h.wf.ks
  have hz : ∀ l : List α, l.length = ms.mu.idx.Nm.sum → (List.zipWith (· - ·) k1 l).length = ms.mu.idx.Nm.sum := by
    intro l hl; rw [List.length_zipWith]; omega
  rw [setSlice_eq (by omega) le_rfl (by rw [hz _ s3]; omega)] at hf
  cases hf
  refine ⟨_, bind_ok.2 ⟨_, e1, bind_ok.2 ⟨_, e2, bind_ok.2 ⟨d, h3, bind_ok.2 ⟨f0, h4, bind_ok.2 ⟨est, h5, bind_ok.2 ⟨k0, h6, bind_ok.2 ⟨k1, h7,
    bind_ok.2 ⟨_, npZip_eq (by rw [hmsk]; omega), setSlice_eq (by omega) le_rfl (by rw [hz _ hmsk]; omega)⟩⟩⟩⟩⟩⟩⟩⟩, ?_, ?_, ?_⟩
  · simp only [List.length_append, hz _ hmsk, hz _ s3]
  · rw [s1, List.append_assoc, List.append_assoc, List.take_append_of_le_length (by simp; omega), List.take_append_of_le_length (by simp; omega)]
  · intro r hr
    rw [s3] at hr
    have hent : ∀ l : List α, l.length = ms.mu.idx.Nm.sum →
        ent (f0.take (N.sum + n) ++ List.zipWith (· - ·) k1 l ++ f0.drop f0.length) (N.sum + n + r) = ent k1 r - ent l r := by
      intro l hl
      have ht : (f0.take (N.sum + n)).length = N.sum + n := by rw [List.length_take]; omega
      unfold ent
      rw [List.drop_length, List.append_nil, List.getD, List.getElem?_append_right (by omega), ht, Nat.add_sub_cancel_left, List.getElem?_zipWith,
        List.getElem?_eq_getElem (show r < k1.length by omega), List.getElem?_eq_getElem (show r < l.length by omega)]
      simp [List.getD, show r < k1.length by omega, show r < l.length by omega]
    rw [s1, hent _ hmsk, hent _ s3]
    ring

end Verif
