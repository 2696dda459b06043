import Verif.Lemmas.Vis
/-
The invariant of a `HarmonisationVis` object, and what every method does to it.
-/
set_option autoImplicit false
namespace Verif
variable {α : Type}

/-- The quantities as they are shown: with the harmonised measurands when those of the first sensor were asked for first (`some true`), else with the match-up's own parameters. -/
def shownBy [Sub α] (n1 n2 : List α) (own harm : List α × List α) (ks : List α) (k : Option Bool) (q : Quantity) : List α :=
  if k = some true then q.spec n1 n2 harm.1 harm.2 ks else q.spec n1 n2 own.1 own.2 ks

section
variable [Field α] {ms : Evaluable α DateTime} {r : List α × List String} {sizes : List Nat} {n1 n2 : List α} {own harm : List α × List α} {t : List DateTime}
  {labels suffixes : List String}

/-- The monthly means of all series. -/
def monthlyOf (x : Idx) (fuel : Nat) (t : List DateTime) (vals : List α) : Py (List (List (α × DateTime))) :=
  (seriesBounds x).mapM fun b => monthlyMeans fuel (slice vals b.1 b.2) (slice t b.1 b.2)

/-- Everything the object remembers is right; `k` says which measurands were asked for first. -/
structure VisInv (ms : Evaluable α DateTime) (r : List α × List String) (sizes : List Nat) (fuel : Nat) (val : Quantity → List α) (t : List DateTime) (labels suffixes : List String)
    (k : Option Bool) (v : Vis α) : Prop where
  i_ms : v.ms = some ms
  i_result : v.result = some r
  i_none : k = none → ∀ q, q.harmonised = true → v.full q = none ∧ v.samples q = none ∧ v.monthly q = none
  i_some : k ≠ none → v.full .L1_harm = some (val .L1_harm) ∧ v.full .L2_harm = some (val .L2_harm)
  i_full : ∀ q x, v.full q = some x → x = val q
  i_samples : ∀ q s, v.samples q = some s → ∃ p, v.positions = some p ∧ SampledAt sizes p (val q) s
  i_monthly : ∀ q l, v.monthly q = some l → monthlyOf ms.mu.idx fuel t (val q) = .ok l
  i_times : ∀ x, v.times = some x → x = t
  i_timesSamples : ∀ s, v.timesSamples = some s → ∃ p, v.positions = some p ∧ SampledAt sizes p t s
  i_positions : ∀ p, v.positions = some p → PlottedPositions sizes p
  i_total : ∀ n, v.total = some n → ∃ p, v.positions = some p ∧ n = (p.map List.length).sum
  i_muTotal : ∀ n, v.muTotal = some n → n = sizes.sum
  i_labels : ∀ l, v.labels = some l → l = labels
  i_suffixes : ∀ l, v.suffixes = some l → l = suffixes

/-- A computation that does not touch the positions. -/
def KeepsPositions {β : Type} (x : VisM α β) : Prop := ∀ v, (x v).2.positions = v.positions

theorem KeepsPositions.bind {β γ : Type} {x : VisM α β} {f : β → VisM α γ} (hx : KeepsPositions x) (hf : ∀ b, KeepsPositions (f b)) : KeepsPositions (x >>= f) := by
  intro v
  show (VisM.andThen x f v).2.positions = _
  unfold VisM.andThen
  have := hx v
  split <;> rename_i h <;> rw [h] at this
  · rw [hf, this]
  · exact this

theorem KeepsPositions.lift {β : Type} (x : Py β) : KeepsPositions (α := α) (VisM.lift x) := fun _ => rfl

theorem KeepsPositions.memo {β : Type} {get : Vis α → Option β} {set : β → Vis α → Vis α} {x : VisM α β} (hx : KeepsPositions x) (hs : ∀ b v, (set b v).positions = v.positions) :
    KeepsPositions (memo get set x) := by
  intro v
  unfold Verif.memo
  have := hx v
  split
  · rfl
  · split <;> rename_i h <;> rw [h] at this
    · rw [hs]; exact this
    · exact this

theorem KeepsPositions.orValueError {β : Type} {x : VisM α β} (hx : KeepsPositions x) : KeepsPositions (orValueError x) := by
  intro v
  unfold Verif.orValueError
  have := hx v
  split <;> rename_i h <;> rw [h] at this <;> exact this

theorem theMatchUp_positions (e : PyErr) : KeepsPositions (α := α) (theMatchUp e) := by
  intro v
  unfold theMatchUp
  split <;> rfl

theorem getNominal_positions (q : Quantity) (name : String) : KeepsPositions (α := α) (getNominal q name) :=
  ((theMatchUp_positions _).bind fun _ => (KeepsPositions.lift _).orValueError).memo fun _ _ => rfl

theorem kresNomNom_positions : KeepsPositions (α := α) getKresNomNom :=
  KeepsPositions.memo ((getNominal_positions _ _).bind fun _ => (getNominal_positions _ _).bind fun _ => (KeepsPositions.lift _).bind fun _ => (theMatchUp_positions _).bind fun _ =>
    KeepsPositions.lift _) fun _ _ => rfl

/-- A computation that succeeds, keeps the invariant (with `k'`) and the positions, and has the property `Q`. -/
def Does {β : Type} (I : Option Bool → Vis α → Prop) (x : VisM α β) (v : Vis α) (k' : Option Bool) (Q : β → Vis α → Prop) : Prop :=
  ∃ b v', x v = (.ok b, v') ∧ I k' v' ∧ (∀ p, v.positions = some p → v'.positions = some p) ∧ Q b v'

theorem Does.bind {β γ : Type} {I : Option Bool → Vis α → Prop} {x : VisM α β} {f : β → VisM α γ} {v : Vis α} {k1 k2 : Option Bool} {Q : β → Vis α → Prop} {R : γ → Vis α → Prop}
    (h : Does I x v k1 Q) (hf : ∀ b v1, I k1 v1 → (∀ p, v.positions = some p → v1.positions = some p) → Q b v1 → Does I (f b) v1 k2 R) : Does I (x >>= f) v k2 R := by
  obtain ⟨b, v1, h1, h2, h3, h4⟩ := h
  obtain ⟨c, v2, e1, e2, e3, e4⟩ := hf b v1 h2 h3 h4
  refine ⟨c, v2, ?_, e2, fun p hp => e3 p (h3 p hp), e4⟩
  show VisM.andThen x f v = _
  unfold VisM.andThen
  rw [h1]
  exact e1

theorem Does.pure {β : Type} {I : Option Bool → Vis α → Prop} {b : β} {v : Vis α} {k : Option Bool} {Q : β → Vis α → Prop} (h : I k v) (hQ : Q b v) :
    Does I (Pure.pure b : VisM α β) v k Q := ⟨b, v, rfl, h, fun _ h => h, hQ⟩

theorem Does.lift {β : Type} {I : Option Bool → Vis α → Prop} {x : Py β} {b : β} {v : Vis α} {k : Option Bool} {Q : β → Vis α → Prop} (hx : x = .ok b) (h : I k v) (hQ : Q b v) :
    Does I (VisM.lift x) v k Q := ⟨b, v, by rw [hx]; rfl, h, fun _ h => h, hQ⟩

theorem Does.imp {β : Type} {I : Option Bool → Vis α → Prop} {x : VisM α β} {v : Vis α} {k : Option Bool} {Q R : β → Vis α → Prop} (h : Does I x v k Q) (hQ : ∀ b v', I k v' → Q b v' → R b v') :
    Does I x v k R := by
  obtain ⟨b, v1, h1, h2, h3, h4⟩ := h
  exact ⟨b, v1, h1, h2, h3, hQ _ _ h2 h4⟩

theorem Does.memo {β : Type} {I : Option Bool → Vis α → Prop} {get : Vis α → Option β} {set : β → Vis α → Vis α} {x : VisM α β} {v : Vis α} {k k' : Option Bool} {Q : β → Vis α → Prop}
    (hI : I k v) (hc : ∀ b, get v = some b → k = k' ∧ Q b v)
    (hx : get v = none → Does I x v k' fun b v' => I k' (set b v') ∧ (∀ p, v'.positions = some p → (set b v').positions = some p) ∧ Q b (set b v')) : Does I (memo get set x) v k' Q := by
  unfold Does Verif.memo
  cases hg : get v with
  | some b =>
    obtain ⟨h1, h2⟩ := hc b hg
    exact ⟨b, v, by simp, h1 ▸ hI, fun _ h => h, h2⟩
  | none =>
    obtain ⟨b, v', e1, e2, e3, e4, e5, e6⟩ := hx hg
    exact ⟨b, set b v', by simp [e1], e4, fun p hp => e5 p (e3 p hp), e6⟩

section
variable (hr : VisReady ms r sizes n1 n2 own harm t labels suffixes) {draw : Nat → Nat → Nat → List Nat} (hdraw : DrawOk draw) {fuel : Nat}

/-- The invariant for given data. -/
abbrev Inv (ms : Evaluable α DateTime) (r : List α × List String) (sizes : List Nat) (fuel : Nat) (n1 n2 : List α) (own harm : List α × List α) (t : List DateTime)
    (labels suffixes : List String) (k : Option Bool) (v : Vis α) : Prop :=
  VisInv ms r sizes fuel (shownBy n1 n2 own harm ms.mu.ks k) t labels suffixes k v

local notation "J" => Inv ms r sizes fuel n1 n2 own harm t labels suffixes

theorem newVis_inv : J none (newVis (some ms) (some r)) := by
  constructor <;> simp [newVis]

theorem residual_eq {l2 l1 k : List α} {n : Nat} (h1 : l1.length = n) (h2 : l2.length = n) (hk : k.length = n) :
    npZip (· - ·) l2 l1 = .ok (List.zipWith (· - ·) l2 l1) ∧ npZip (· - ·) (List.zipWith (· - ·) l2 l1) k = .ok (residuals l2 l1 k) := by
  refine ⟨npZip_eq (by omega), ?_⟩
  rw [npZip_eq (by simp; omega)]
  rfl

include hr in
theorem shown_length (k : Option Bool) (q : Quantity) : (shownBy n1 n2 own harm ms.mu.ks k q).length = sizes.sum := by
  obtain ⟨h1, h2, h3, h4, h5, h6, h7⟩ := hr.h_len
  unfold shownBy
  split <;> cases q <;> simp [Quantity.spec, residuals, h1, h2, h3, h4, h5, h6, h7]

theorem shown_nominal {k k' : Option Bool} {q : Quantity} (hq : q.harmonised = false) : shownBy n1 n2 own harm ms.mu.ks k q = shownBy n1 n2 own harm ms.mu.ks k' q := by
  unfold shownBy
  split <;> split <;> cases q <;> first | rfl | cases hq

/-- Remembering a right value of a quantity. -/
theorem setFull_inv {k : Option Bool} {v : Vis α} (h : J k v) (q : Quantity) (hk : k = none → q.harmonised = false) :
    J k { v with full := Function.update v.full q (some (shownBy n1 n2 own harm ms.mu.ks k q)) } := by
  constructor
  case i_none =>
    intro hn q' hq'
    obtain ⟨h1, h2, h3⟩ := h.i_none hn q' hq'
    refine ⟨?_, h2, h3⟩
    have hne : q' ≠ q := by rintro rfl; rw [hk hn] at hq'; cases hq'
    simp only [Function.update_of_ne hne, h1]
  case i_some =>
    intro hn
    obtain ⟨h1, h2⟩ := h.i_some hn
    constructor
    · by_cases hq : Quantity.L1_harm = q
      · subst hq; simp
      · simp only [Function.update_of_ne hq, h1]
    · by_cases hq : Quantity.L2_harm = q
      · subst hq; simp
      · simp only [Function.update_of_ne hq, h2]
  case i_full =>
    intro q' x hx
    by_cases hq : q' = q
    · subst hq; simpa using hx.symm
    · simp only [Function.update_of_ne hq] at hx; exact h.i_full q' x hx
  all_goals first | exact h.i_ms | exact h.i_result | exact h.i_samples | exact h.i_monthly | exact h.i_times | exact h.i_timesSamples | exact h.i_positions | exact h.i_total |
    exact h.i_muTotal | exact h.i_labels | exact h.i_suffixes

theorem theMatchUp_does {k : Option Bool} {v : Vis α} (h : J k v) (e : PyErr) : Does J (theMatchUp e) v k fun b v' => b = ms ∧ v' = v :=
  ⟨ms, v, by unfold theMatchUp; rw [h.i_ms], h, fun _ h => h, rfl, rfl⟩

theorem getNominal_does {k : Option Bool} {v : Vis α} (h : J k v) {q : Quantity} {name : String} (hq : q.harmonised = false)
    (hn : ms.mu.getAdditionalData name none = .ok (shownBy n1 n2 own harm ms.mu.ks k q)) :
    Does J (getNominal q name) v k fun b _ => b = shownBy n1 n2 own harm ms.mu.ks k q := by
  unfold getNominal
  refine Does.memo h (fun b hb => ⟨rfl, h.i_full q b hb⟩) fun _ => ?_
  refine Does.bind (theMatchUp_does h _) ?_
  rintro b v1 h1 - ⟨rfl, rfl⟩
  refine ⟨_, v1, ?_, h1, fun _ h => h, setFull_inv h1 q (fun _ => hq), fun _ h => h, rfl⟩
  unfold orValueError VisM.lift
  rw [hn]

include hr in
theorem getN2_does {k : Option Bool} {v : Vis α} (h : J k v) : Does J (getNominal .L2_nom "nominal_measurand2") v k fun b _ => b = n2 := by
  have : shownBy n1 n2 own harm ms.mu.ks k .L2_nom = n2 := by unfold shownBy; split <;> rfl
  simpa only [this] using getNominal_does h (q := .L2_nom) rfl (by rw [this]; exact hr.h_nom2)

include hr in
theorem getN1_does {k : Option Bool} {v : Vis α} (h : J k v) : Does J (getNominal .L1_nom "nominal_measurand1") v k fun b _ => b = n1 := by
  have : shownBy n1 n2 own harm ms.mu.ks k .L1_nom = n1 := by unfold shownBy; split <;> rfl
  simpa only [this] using getNominal_does h (q := .L1_nom) rfl (by rw [this]; exact hr.h_nom1)

theorem residualOf_does {k k1 k2 : Option Bool} {v : Vis α} (h : J k v) {x2 x1 : VisM α (List α)} {l2 l1 : List α} {n : Nat} (hl1 : l1.length = n) (hl2 : l2.length = n)
    (hlk : ms.mu.ks.length = n) (hx2 : Does J x2 v k1 fun b _ => b = l2) (hx1 : ∀ v1, J k1 v1 → Does J x1 v1 k2 fun b _ => b = l1) :
    Does J (residualOf x2 x1) v k2 fun b _ => b = residuals l2 l1 ms.mu.ks := by
  obtain ⟨e1, e2⟩ := residual_eq hl1 hl2 hlk
  unfold residualOf
  refine Does.bind hx2 ?_
  rintro b v1 h1 - rfl
  refine Does.bind (hx1 v1 h1) ?_
  rintro b v2 h2 - rfl
  refine Does.bind (Does.lift (Q := fun b v => b = _ ∧ v = v2) e1 h2 ⟨rfl, rfl⟩) ?_
  rintro b v3 h3 - ⟨rfl, rfl⟩
  refine Does.bind (theMatchUp_does h3 _) ?_
  rintro b v4 h4 - ⟨rfl, rfl⟩
  exact Does.lift e2 h4 rfl

include hr in
theorem getKresNomNom_does {k : Option Bool} {v : Vis α} (h : J k v) : Does J getKresNomNom v k fun b _ => b = residuals n2 n1 ms.mu.ks := by
  have hs : shownBy n1 n2 own harm ms.mu.ks k .kres_nom_nom = residuals n2 n1 ms.mu.ks := by unfold shownBy; split <;> rfl
  unfold getKresNomNom
  refine Does.memo h (fun b hb => ⟨rfl, by rw [← hs]; exact h.i_full _ b hb⟩) fun _ => ?_
  refine (residualOf_does h hr.h_len.1 hr.h_len.2.1 hr.h_len.2.2.2.2.2.2 (getN2_does hr h) fun v1 h1 => getN1_does hr h1).imp ?_
  rintro b v' hI rfl
  refine ⟨?_, fun _ h => h, rfl⟩
  have := setFull_inv hI .kres_nom_nom (fun _ => rfl)
  rwa [hs] at this

/-- Evaluating both measurands for the first time. -/
theorem setHarm_inv {v : Vis α} (h : J none v) (b : Bool) : J (some b) (v.setHarm (if b then harm else own)) := by
  have hn := h.i_none rfl
  have hv : ∀ q, q.harmonised = false → shownBy n1 n2 own harm ms.mu.ks none q = shownBy n1 n2 own harm ms.mu.ks (some b) q := fun q hq => shown_nominal hq
  have h1 : shownBy n1 n2 own harm ms.mu.ks (some b) .L1_harm = (if b then harm else own).1 := by cases b <;> rfl
  have h2 : shownBy n1 n2 own harm ms.mu.ks (some b) .L2_harm = (if b then harm else own).2 := by cases b <;> rfl
  constructor
  case i_none => intro hh; cases hh
  case i_some =>
    intro _
    refine ⟨?_, ?_⟩
    · rw [h1]; simp [Vis.setHarm, Function.update]
    · rw [h2]; simp [Vis.setHarm, Function.update]
  case i_full =>
    intro q x hx
    simp only [Vis.setHarm, Function.update] at hx
    split at hx
    · rename_i hq; subst hq
      simp only [Option.some.injEq] at hx
      rw [h2, ← hx]
    · split at hx
      · rename_i hq; subst hq
        simp only [Option.some.injEq] at hx
        rw [h1, ← hx]
      · by_cases hq : q.harmonised = true
        · rw [(hn q hq).1] at hx; cases hx
        · rw [← hv q (by simpa using hq)]; exact h.i_full q x hx
  case i_samples =>
    intro q s hs
    by_cases hq : q.harmonised = true
    · have := (hn q hq).2.1
      rw [show (v.setHarm (if b then harm else own)).samples = v.samples from rfl, this] at hs; cases hs
    · rw [← hv q (by simpa using hq)]; exact h.i_samples q s hs
  case i_monthly =>
    intro q s hs
    by_cases hq : q.harmonised = true
    · have := (hn q hq).2.2
      rw [show (v.setHarm (if b then harm else own)).monthly = v.monthly from rfl, this] at hs; cases hs
    · rw [← hv q (by simpa using hq)]; exact h.i_monthly q s hs
  all_goals first | exact h.i_ms | exact h.i_result | exact h.i_times | exact h.i_timesSamples | exact h.i_positions | exact h.i_total |
    exact h.i_muTotal | exact h.i_labels | exact h.i_suffixes

theorem withParameters_back (ms : Evaluable α DateTime) (a : List α) (s : List String) {old : List String} (h : ms.mu.idx.parameter_sensor = some old) :
    (ms.withParameters a s).withParameters ms.a old = ms := by
  obtain ⟨mu, a', c, f, g⟩ := ms
  obtain ⟨idx, _⟩ := mu
  obtain ⟨_⟩ := idx
  simp only at h
  subst h
  rfl

include hr in
theorem getL1Harm_does {k : Option Bool} {v : Vis α} (h : J k v) :
    Does J getL1Harm v (k <|> some true) fun b _ => b = shownBy n1 n2 own harm ms.mu.ks (k <|> some true) .L1_harm := by
  unfold Does getL1Harm
  match k with
  | some b =>
    rw [(h.i_some (by simp)).1]
    exact ⟨_, v, rfl, h, fun _ h => h, rfl⟩
  | none =>
    rw [(h.i_none rfl .L1_harm rfl).1]
    simp only [h.i_ms, h.i_result]
    cases hp : ms.mu.idx.parameter_sensor with
    | none => exact absurd hp hr.h_par
    | some old =>
      simp only [hr.h_harm]
      rw [withParameters_back ms _ _ hp]
      have hv : ({ v.setHarm harm with ms := some ms } : Vis α) = v.setHarm harm := by
        have := h.i_ms
        cases v
        simp only at this
        subst this
        rfl
      rw [hv]
      exact ⟨_, _, rfl, setHarm_inv h true, fun _ h => h, rfl⟩

include hr in
theorem getL2Harm_does {k : Option Bool} {v : Vis α} (h : J k v) :
    Does J getL2Harm v (k <|> some false) fun b _ => b = shownBy n1 n2 own harm ms.mu.ks (k <|> some false) .L2_harm := by
  unfold Does getL2Harm
  match k with
  | some b =>
    rw [(h.i_some (by simp)).2]
    exact ⟨_, v, rfl, h, fun _ h => h, rfl⟩
  | none =>
    rw [(h.i_none rfl .L2_harm rfl).1]
    simp only [h.i_ms, hr.h_own]
    exact ⟨_, _, rfl, setHarm_inv h false, fun _ h => h, rfl⟩

include hr in
theorem getKresHarm_does {k k1 : Option Bool} {v : Vis α} (h : J k v) {q : Quantity} (hq : q.harmonised = true) {x2 : VisM α (List α)} {l2 : List α} (hl2 : l2.length = sizes.sum)
    (hx2 : Does J x2 v k1 fun b _ => b = l2) (hk : k = none ∨ k = (k1 <|> some true))
    (hval : residuals l2 (shownBy n1 n2 own harm ms.mu.ks (k1 <|> some true) .L1_harm) ms.mu.ks = shownBy n1 n2 own harm ms.mu.ks (k1 <|> some true) q) :
    Does J (getKresHarm q x2) v (k1 <|> some true) fun b _ => b = some (shownBy n1 n2 own harm ms.mu.ks (k1 <|> some true) q) := by
  have hmain : Does J (memo (·.full q) (fun b v => { v with full := Function.update v.full q (some b) }) (residualOf x2 getL1Harm)) v (k1 <|> some true)
      fun b _ => b = shownBy n1 n2 own harm ms.mu.ks (k1 <|> some true) q := by
    refine Does.memo h (fun b hb => ?_) fun _ => ?_
    · have hkn : k ≠ none := by
        intro hn
        rw [(h.i_none hn q hq).1] at hb; cases hb
      rcases hk with hk | hk
      · exact absurd hk hkn
      · refine ⟨hk, ?_⟩
        rw [← hk]; exact h.i_full q b hb
    · refine (residualOf_does h (shown_length hr _ _) hl2 hr.h_len.2.2.2.2.2.2 hx2 fun v1 h1 => getL1Harm_does hr h1).imp ?_
      rintro b v' hI rfl
      rw [hval]
      refine ⟨setFull_inv hI q (fun hn => ?_), fun _ h => h, rfl⟩
      cases k1 <;> cases hn
  obtain ⟨b, v', e1, e2, e3, rfl⟩ := hmain
  refine ⟨_, v', ?_, e2, e3, rfl⟩
  unfold getKresHarm orReturned
  rw [e1]

include hr in
theorem getFull_does {k : Option Bool} {v : Vis α} (h : J k v) (q : Quantity) :
    Does J (getFull q) v (k <|> q.asks) fun b _ => b = some (shownBy n1 n2 own harm ms.mu.ks (k <|> q.asks) q) := by
  have hk : ∀ k : Option Bool, (k <|> none) = k := by intro k; cases k <;> rfl
  have hn1 : ∀ k, shownBy n1 n2 own harm ms.mu.ks k .L1_nom = n1 := by intro k; unfold shownBy; split <;> rfl
  have hn2 : ∀ k, shownBy n1 n2 own harm ms.mu.ks k .L2_nom = n2 := by intro k; unfold shownBy; split <;> rfl
  have hnn : ∀ k, shownBy n1 n2 own harm ms.mu.ks k .kres_nom_nom = residuals n2 n1 ms.mu.ks := by intro k; unfold shownBy; split <;> rfl
  cases q with
  | L1_nom =>
    rw [show Quantity.asks .L1_nom = none from rfl, hk]
    refine Does.bind (getN1_does hr h) ?_
    rintro b v1 h1 - rfl
    exact Does.pure h1 (by rw [hn1])
  | L2_nom =>
    rw [show Quantity.asks .L2_nom = none from rfl, hk]
    refine Does.bind (getN2_does hr h) ?_
    rintro b v1 h1 - rfl
    exact Does.pure h1 (by rw [hn2])
  | kres_nom_nom =>
    rw [show Quantity.asks .kres_nom_nom = none from rfl, hk]
    refine Does.bind (getKresNomNom_does hr h) ?_
    rintro b v1 h1 - rfl
    exact Does.pure h1 (by rw [hnn])
  | L1_harm =>
    refine Does.bind (getL1Harm_does hr h) ?_
    rintro b v1 h1 - rfl
    exact Does.pure h1 rfl
  | L2_harm =>
    refine Does.bind (getL2Harm_does hr h) ?_
    rintro b v1 h1 - rfl
    exact Does.pure h1 rfl
  | kres_harm_harm =>
    have hkk : ((k <|> some false) <|> some true) = (k <|> some false) := by cases k <;> rfl
    have := getKresHarm_does hr h (q := .kres_harm_harm) rfl (shown_length hr (k <|> some false) .L2_harm) (getL2Harm_does hr h)
      (by cases k <;> simp) (by rw [hkk]; unfold shownBy; split <;> rfl)
    rw [hkk] at this
    exact this
  | kres_nom_harm =>
    exact getKresHarm_does hr h (q := .kres_nom_harm) rfl hr.h_len.2.1 (getN2_does hr h) (by cases k <;> simp) (by unfold shownBy; split <;> rfl)

theorem getTimes_does {k : Option Bool} {v : Vis α} (ht : ms.mu.time2 = some t) (h : J k v) : Does J getTimes v k fun b _ => b = t := by
  unfold getTimes
  refine Does.memo h (fun b hb => ⟨rfl, h.i_times b hb⟩) fun _ => ?_
  refine Does.bind (theMatchUp_does h _) ?_
  rintro b v1 h1 - ⟨rfl, rfl⟩
  rw [ht]
  refine Does.pure h1 ⟨?_, fun _ h => h, rfl⟩
  constructor
  case i_times => intro x hx; simpa using hx.symm
  all_goals first | exact h.i_ms | exact h.i_result | exact h.i_none | exact h.i_some | exact h.i_full | exact h.i_samples | exact h.i_monthly | exact h.i_timesSamples |
    exact h.i_positions | exact h.i_total | exact h.i_muTotal | exact h.i_labels | exact h.i_suffixes

include hr hdraw in
theorem getPositions_does {k : Option Bool} {v : Vis α} (h : J k v) : Does J (getPositions draw) v k fun b v' => ∃ p, b = some p ∧ v'.positions = some p ∧ PlottedPositions sizes p := by
  unfold Does getPositions
  rw [h.i_ms]
  refine Does.bind (I := J) (Q := fun p v' => v'.positions = some p ∧ PlottedPositions sizes p) (k1 := k) ?_ ?_
  · refine Does.memo h (fun b hb => ⟨rfl, hb, h.i_positions b hb⟩) fun hnone => ?_
    refine Does.bind (I := J) (Q := fun b v' => b = residuals n2 n1 ms.mu.ks ∧ v'.positions = none) (k1 := k) ?_ ?_
    · -- the residuals do not touch the positions
      obtain ⟨b, v', e1, e2, e3, e4⟩ := getKresNomNom_does (fuel := fuel) hr h
      refine ⟨b, v', e1, e2, e3, e4, ?_⟩
      have hkeep := kresNomNom_positions v
      rw [e1] at hkeep
      exact hkeep.trans hnone
    · rintro b v1 h1 - ⟨rfl, hn1⟩
      refine Does.bind (theMatchUp_does h1 _) ?_
      rintro b v2 h2 - ⟨rfl, rfl⟩
      have hlen : (residuals n2 n1 b.mu.ks).length = sizes.sum := by
        obtain ⟨g1, g2, -, -, -, -, g7⟩ := hr.h_len
        simp [residuals, g1, g2, g7]
      refine ⟨_, _, rfl, ?_, (fun p hp => by rw [hn1] at hp; cases hp), ?_, (fun p hp => ?_), rfl, ?_⟩
      · constructor
        all_goals first | exact h2.i_ms | exact h2.i_result | exact h2.i_none | exact h2.i_some | exact h2.i_full | exact h2.i_samples | exact h2.i_monthly | exact h2.i_times |
          exact h2.i_timesSamples | exact h2.i_positions | exact h2.i_total | exact h2.i_muTotal | exact h2.i_labels | exact h2.i_suffixes
      · constructor
        case i_samples =>
          intro q s hs
          obtain ⟨p, hp, _⟩ := h2.i_samples q s hs
          rw [hn1] at hp; cases hp
        case i_timesSamples =>
          intro s hs
          obtain ⟨p, hp, _⟩ := h2.i_timesSamples s hs
          rw [hn1] at hp; cases hp
        case i_total =>
          intro s hs
          obtain ⟨p, hp, _⟩ := h2.i_total s hs
          rw [hn1] at hp; cases hp
        case i_positions =>
          intro p hp
          simp only [Option.some.injEq] at hp
          rw [← hp, hlen]
          exact plotted_of_series hdraw hr.h_cNm _
        all_goals first | exact h2.i_ms | exact h2.i_result | exact h2.i_none | exact h2.i_some | exact h2.i_full | exact h2.i_monthly | exact h2.i_times |
          exact h2.i_muTotal | exact h2.i_labels | exact h2.i_suffixes
      · have : (none : Option (List (List Nat))) = some p := hn1.symm.trans hp
        cases this
      · rw [hlen]
        exact plotted_of_series hdraw hr.h_cNm _
  · rintro p v1 h1 - ⟨hp, hg⟩
    exact Does.pure h1 ⟨p, rfl, hp, hg⟩

end
end
end Verif
