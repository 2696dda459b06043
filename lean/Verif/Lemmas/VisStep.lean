import Verif.Lemmas.VisInv
/-
Every call on a `HarmonisationVis` object keeps the invariant.
-/
set_option autoImplicit false
namespace Verif
variable {α : Type}

section
variable [Field α] {ms : Evaluable α DateTime} {r : List α × List String} {sizes : List Nat} {n1 n2 : List α} {own harm : List α × List α} {t : List DateTime}
  {labels suffixes : List String} {fuel : Nat} {draw : Nat → Nat → Nat → List Nat}

local notation "J" => Inv ms r sizes fuel n1 n2 own harm t labels suffixes
local notation "Rdy" => VisReady ms r sizes n1 n2 own harm t labels suffixes

theorem getTotal_does {k : Option Bool} {v : Vis α} (h : J k v) : Does J getTotal v k fun b v' => b = v'.positions.map (fun p => (p.map List.length).sum) ∧ v'.positions = v.positions := by
  cases ht : v.total with
  | some n =>
    obtain ⟨p, hp, rfl⟩ := h.i_total n ht
    exact ⟨_, v, by unfold getTotal; rw [ht], h, fun _ h => h, by rw [hp]; rfl, rfl⟩
  | none =>
    cases hp : v.positions with
    | none => exact ⟨none, v, by unfold getTotal; rw [ht, hp], h, fun _ h => h, by rw [hp]; rfl, hp⟩
    | some p =>
      refine ⟨some (p.map List.length).sum, { v with total := some (p.map List.length).sum }, by unfold getTotal; rw [ht, hp], ?_, fun _ h => h, by simp [hp], hp⟩
      constructor
      case i_total =>
        intro n hn
        exact ⟨p, hp, by simpa using hn.symm⟩
      all_goals first | exact h.i_ms | exact h.i_result | exact h.i_none | exact h.i_some | exact h.i_full | exact h.i_samples | exact h.i_monthly | exact h.i_times |
        exact h.i_timesSamples | exact h.i_positions | exact h.i_muTotal | exact h.i_labels | exact h.i_suffixes

theorem getMuTotal_does (hr : Rdy) {k : Option Bool} {v : Vis α} (h : J k v) : Does J getMuTotal v k fun b _ => b = some sizes.sum := by
  cases ht : v.muTotal with
  | some n =>
    obtain rfl := h.i_muTotal n ht
    exact ⟨_, v, by unfold getMuTotal; rw [ht], h, fun _ h => h, rfl⟩
  | none =>
    have : pyGet ms.mu.idx.cNm (ms.mu.idx.cNm.length - 1) = .ok sizes.sum := by
      refine pyGet_ok.2 ?_
      rw [hr.h_cNm, ← List.getLast?_eq_getElem?, prefixSums_getLast]
    refine ⟨some sizes.sum, { v with muTotal := some sizes.sum }, by unfold getMuTotal; rw [ht, h.i_ms]; simp only [this], ?_, fun _ h => h, rfl⟩
    constructor
    case i_muTotal => intro n hn; simpa using hn.symm
    all_goals first | exact h.i_ms | exact h.i_result | exact h.i_none | exact h.i_some | exact h.i_full | exact h.i_samples | exact h.i_monthly | exact h.i_times |
      exact h.i_timesSamples | exact h.i_positions | exact h.i_total | exact h.i_labels | exact h.i_suffixes

theorem getLabels_does (hr : Rdy) {k : Option Bool} {v : Vis α} (h : J k v) : Does J getLabels v k fun b v' => b = labels ∧ v'.positions = v.positions := by
  unfold getLabels
  refine Does.memo h (fun b hb => ⟨rfl, h.i_labels b hb, rfl⟩) fun _ => ?_
  refine Does.bind (theMatchUp_does h _) ?_
  rintro b v1 h1 - ⟨rfl, rfl⟩
  refine Does.lift hr.h_labels h1 ⟨?_, fun _ h => h, rfl, rfl⟩
  constructor
  case i_labels => intro x hx; simpa using hx.symm
  all_goals first | exact h.i_ms | exact h.i_result | exact h.i_none | exact h.i_some | exact h.i_full | exact h.i_samples | exact h.i_monthly | exact h.i_times | exact h.i_timesSamples |
    exact h.i_positions | exact h.i_total | exact h.i_muTotal | exact h.i_suffixes

theorem getSuffixes_does (hr : Rdy) {k : Option Bool} {v : Vis α} (h : J k v) : Does J getSuffixes v k fun b _ => b = suffixes := by
  unfold getSuffixes
  refine Does.memo h (fun b hb => ⟨rfl, h.i_suffixes b hb⟩) fun _ => ?_
  refine Does.bind (theMatchUp_does h _) ?_
  rintro b v1 h1 - ⟨rfl, rfl⟩
  refine Does.lift hr.h_suffixes h1 ⟨?_, fun _ h => h, rfl⟩
  constructor
  case i_suffixes => intro x hx; simpa using hx.symm
  all_goals first | exact h.i_ms | exact h.i_result | exact h.i_none | exact h.i_some | exact h.i_full | exact h.i_samples | exact h.i_monthly | exact h.i_times | exact h.i_timesSamples |
    exact h.i_positions | exact h.i_total | exact h.i_muTotal | exact h.i_labels

theorem musampleValues_does (hr : Rdy) (hdraw : DrawOk draw) {β : Type} {vals : List β} (hl : vals.length = sizes.sum) {k : Option Bool} {v : Vis α} (h : J k v) :
    Does J (musampleValues draw (some vals)) v k fun s v' => ∃ p, v'.positions = some p ∧ SampledAt sizes p vals s := by
  unfold musampleValues
  refine Does.bind (getPositions_does hr hdraw h) ?_
  rintro b v1 h1 - ⟨p, rfl, hp, hg⟩
  refine Does.bind (theMatchUp_does h1 _) ?_
  rintro b v2 h2 - ⟨rfl, rfl⟩
  obtain ⟨s, hs, hs'⟩ := pickSamples_ok hr.h_cNm hg hl
  exact Does.lift hs h2 ⟨p, hp, hs'⟩

theorem orElse_none (k : Option Bool) : (k <|> none) = k := by cases k <;> rfl

theorem harmonised_asks {q : Quantity} (h : q.harmonised = true) (k : Option Bool) : (k <|> q.asks) ≠ none := by
  cases k <;> cases q <;> first | exact absurd h (by decide) | (intro hh; cases hh)

theorem getSamples_does (hr : Rdy) (hdraw : DrawOk draw) {k : Option Bool} {v : Vis α} (h : J k v) (q : Quantity) :
    Does J (getSamples draw q) v (k <|> q.asks) fun s v' => ∃ p, v'.positions = some p ∧ SampledAt sizes p (shownBy n1 n2 own harm ms.mu.ks (k <|> q.asks) q) s := by
  unfold getSamples
  refine Does.memo h (fun b hb => ?_) fun _ => ?_
  · have hk : k = (k <|> q.asks) := by
      cases k with
      | some b => rfl
      | none =>
        cases hq : q.harmonised with
        | true => rw [(h.i_none rfl q hq).2.1] at hb; cases hb
        | false => cases q <;> first | rfl | cases hq
    rw [← hk]
    exact ⟨rfl, h.i_samples q b hb⟩
  · refine Does.bind (getFull_does hr h q) ?_
    rintro b v1 h1 - rfl
    refine (musampleValues_does hr hdraw (shown_length hr _ q) h1).imp ?_
    rintro s v' hI ⟨p, hp, hs⟩
    refine ⟨?_, fun _ h => h, p, hp, hs⟩
    constructor
    case i_none =>
      intro hn q' hq'
      obtain ⟨g1, g2, g3⟩ := hI.i_none hn q' hq'
      refine ⟨g1, ?_, g3⟩
      have hne : q' ≠ q := by rintro rfl; exact harmonised_asks hq' k hn
      simp only [Function.update_of_ne hne, g2]
    case i_samples =>
      intro q' s' hs'
      by_cases hq : q' = q
      · subst hq
        simp only [Function.update_self, Option.some.injEq] at hs'
        subst hs'
        exact ⟨p, hp, hs⟩
      · simp only [Function.update_of_ne hq] at hs'
        exact hI.i_samples q' s' hs'
    all_goals first | exact hI.i_ms | exact hI.i_result | exact hI.i_some | exact hI.i_full | exact hI.i_monthly | exact hI.i_times | exact hI.i_timesSamples |
      exact hI.i_positions | exact hI.i_total | exact hI.i_muTotal | exact hI.i_labels | exact hI.i_suffixes

theorem getTimesSamples_does (hr : Rdy) (hdraw : DrawOk draw) {k : Option Bool} {v : Vis α} (h : J k v) :
    Does J (getTimesSamples draw) v k fun s v' => ∃ p, v'.positions = some p ∧ SampledAt sizes p t s := by
  unfold getTimesSamples
  refine Does.memo h (fun b hb => ⟨rfl, h.i_timesSamples b hb⟩) fun _ => ?_
  refine Does.bind (getTimes_does hr.h_time h) ?_
  rintro b v1 h1 - rfl
  refine (musampleValues_does hr hdraw hr.h_tlen h1).imp ?_
  rintro s v' hI ⟨p, hp, hs⟩
  refine ⟨?_, fun _ h => h, p, hp, hs⟩
  constructor
  case i_timesSamples =>
    intro s' hs'
    simp only [Option.some.injEq] at hs'
    subst hs'
    exact ⟨p, hp, hs⟩
  all_goals first | exact hI.i_ms | exact hI.i_result | exact hI.i_none | exact hI.i_some | exact hI.i_full | exact hI.i_samples | exact hI.i_monthly | exact hI.i_times |
    exact hI.i_positions | exact hI.i_total | exact hI.i_muTotal | exact hI.i_labels | exact hI.i_suffixes

/-- Enough fuel for the monthly means of everything that may be shown. -/
def FuelOk (ms : Evaluable α DateTime) (n1 n2 : List α) (own harm : List α × List α) (t : List DateTime) (fuel : Nat) : Prop :=
  ∀ k q, ∃ l, monthlyOf ms.mu.idx fuel t (shownBy n1 n2 own harm ms.mu.ks k q) = .ok l

theorem getMonthly_does (hr : Rdy) (hfuel : FuelOk ms n1 n2 own harm t fuel) {k : Option Bool} {v : Vis α} (h : J k v) (q : Quantity) :
    Does J (getMonthly fuel q) v (k <|> q.asks) fun l _ => monthlyOf ms.mu.idx fuel t (shownBy n1 n2 own harm ms.mu.ks (k <|> q.asks) q) = .ok l := by
  unfold getMonthly
  refine Does.memo h (fun b hb => ?_) fun _ => ?_
  · have hk : k = (k <|> q.asks) := by
      cases k with
      | some b => rfl
      | none =>
        cases hq : q.harmonised with
        | true => rw [(h.i_none rfl q hq).2.2] at hb; cases hb
        | false => cases q <;> first | rfl | cases hq
    rw [← hk]
    exact ⟨rfl, h.i_monthly q b hb⟩
  · refine Does.bind (getFull_does hr h q) ?_
    rintro b v1 h1 - rfl
    obtain ⟨l, hl⟩ := hfuel (k <|> q.asks) q
    have hmv : Does J (monthlymeanValues fuel (some (shownBy n1 n2 own harm ms.mu.ks (k <|> q.asks) q))) v1 (k <|> q.asks) fun b _ => b = l := by
      unfold monthlymeanValues
      refine Does.bind (theMatchUp_does h1 _) ?_
      rintro b v2 h2 - ⟨rfl, rfl⟩
      refine Does.bind (getTimes_does hr.h_time h2) ?_
      rintro b v3 h3 - rfl
      exact Does.lift hl h3 rfl
    refine hmv.imp ?_
    rintro b v' hI rfl
    refine ⟨?_, fun _ h => h, hl⟩
    constructor
    case i_none =>
      intro hn q' hq'
      obtain ⟨g1, g2, g3⟩ := hI.i_none hn q' hq'
      refine ⟨g1, g2, ?_⟩
      have hne : q' ≠ q := by rintro rfl; exact harmonised_asks hq' k hn
      simp only [Function.update_of_ne hne, g3]
    case i_monthly =>
      intro q' s' hs'
      by_cases hq : q' = q
      · subst hq
        simp only [Function.update_self, Option.some.injEq] at hs'
        subst hs'
        exact hl
      · simp only [Function.update_of_ne hq] at hs'
        exact hI.i_monthly q' s' hs'
    all_goals first | exact hI.i_ms | exact hI.i_result | exact hI.i_some | exact hI.i_full | exact hI.i_samples | exact hI.i_times | exact hI.i_timesSamples |
      exact hI.i_positions | exact hI.i_total | exact hI.i_muTotal | exact hI.i_labels | exact hI.i_suffixes

/-- What is drawn: for each series its label, and the points made of the two coordinates of the same match-up. -/
def DrawnAt {β γ : Type} (sizes : List Nat) (labels : List String) (pos : List (List Nat)) (Y : List β) (X : List γ) (out : List (String × List (γ × β))) : Prop :=
  out.length = sizes.length ∧ ∀ (i : Nat) (p : List Nat), pos[i]? = some p → ∃ label pts, out[i]? = some (label, pts) ∧ labels[i]? = some label ∧ pts.length = p.length ∧
    ∀ (m j : Nat), p[m]? = some j → ∃ x y, pts[m]? = some (x, y) ∧ X[(sizes.take i).sum + j]? = some x ∧ Y[(sizes.take i).sum + j]? = some y

theorem plotLists_ok {β γ : Type} (hne : sizes ≠ []) (hll : labels.length = sizes.length) {pos : List (List Nat)} (hp : pos.length = sizes.length) {Y : List β} {X : List γ}
    {ys : List (List β)} {xs : List (List γ)} (hy : SampledAt sizes pos Y ys) (hx : SampledAt sizes pos X xs) :
    ∃ out, plotLists ys xs labels = .ok out ∧ DrawnAt sizes labels pos Y X out := by
  have hpos : 0 < sizes.length := List.length_pos_iff.2 hne
  have hlen : ∀ (i : Nat) (x : List γ) (y : List β), xs[i]? = some x → ys[i]? = some y → ∃ p, pos[i]? = some p ∧ x.map some = p.map (fun j => X[(sizes.take i).sum + j]?) ∧
      y.map some = p.map (fun j => Y[(sizes.take i).sum + j]?) := by
    intro i x y hxi hyi
    have hi : i < pos.length := by rw [hp, ← hx.1]; exact (List.getElem?_eq_some_iff.1 hxi).1
    obtain ⟨s, hs, hs'⟩ := hx.2 i _ (List.getElem?_eq_getElem hi)
    obtain ⟨s', ht, ht'⟩ := hy.2 i _ (List.getElem?_eq_getElem hi)
    rw [hxi] at hs; cases hs
    rw [hyi] at ht; cases ht
    exact ⟨_, List.getElem?_eq_getElem hi, hs', ht'⟩
  have hok : ∀ q ∈ (xs.zip ys).zipIdx, ∃ b, (do
      let label ← pyGet labels q.2
      if q.1.1.length = q.1.2.length then (pure (label, q.1.1.zip q.1.2) : Py (String × List (γ × β))) else .error .valueError) = .ok b := by
    rintro ⟨⟨x, y⟩, i⟩ hq
    rw [List.mem_zipIdx_iff_getElem?, List.getElem?_zip_eq_some] at hq
    obtain ⟨h1, h2⟩ := hq
    simp only at h1 h2
    obtain ⟨p, _, e1, e2⟩ := hlen i x y h1 h2
    have hl : x.length = y.length := by
      have g1 := congrArg List.length e1
      have g2 := congrArg List.length e2
      simp only [List.length_map] at g1 g2
      omega
    have hi : i < labels.length := by rw [hll, ← hx.1]; exact (List.getElem?_eq_some_iff.1 h1).1
    exact ⟨_, bind_ok.2 ⟨_, pyGet_ok.2 (List.getElem?_eq_getElem hi), by simp only; rw [if_pos hl]; rfl⟩⟩
  obtain ⟨out, ho⟩ := mapM_all_ok hok
  refine ⟨out, ?_, ?_⟩
  · unfold plotLists
    refine bind_ok.2 ⟨_, pyGet_ok.2 (List.getElem?_eq_getElem (by rw [hx.1]; exact hpos)), bind_ok.2 ⟨_, pyGet_ok.2 (List.getElem?_eq_getElem (by rw [hy.1]; exact hpos)), ho⟩⟩
  · obtain ⟨g1, g2⟩ := mapM_ok_get ho
    refine ⟨by rw [g1]; simp [hx.1, hy.1], ?_⟩
    intro i p hpi
    obtain ⟨x, hxi, hx'⟩ := hx.2 i p hpi
    obtain ⟨y, hyi, hy'⟩ := hy.2 i p hpi
    obtain ⟨b, hb, hb'⟩ := g2 i ((x, y), i) (by rw [List.getElem?_zipIdx, List.getElem?_zip_eq_some (z := (x, y)) |>.2 ⟨hxi, hyi⟩]; simp)
    obtain ⟨label, hlab, hb⟩ := bind_ok.1 hb
    simp only at hb hlab
    have hxl : x.length = p.length := by simpa using congrArg List.length hx'
    have hyl : y.length = p.length := by simpa using congrArg List.length hy'
    rw [if_pos (by omega)] at hb
    obtain rfl := Except.ok.inj hb
    refine ⟨label, _, hb', pyGet_ok.1 hlab, by simp [hxl, hyl], ?_⟩
    intro m j hm
    have hx'' := congrArg (fun l => l[m]?) hx'
    have hy'' := congrArg (fun l => l[m]?) hy'
    simp only [List.getElem?_map, hm, Option.map_some] at hx'' hy''
    have hmp := (List.getElem?_eq_some_iff.1 hm).1
    have e1 := List.getElem?_eq_getElem (l := x) (i := m) (by omega)
    have e2 := List.getElem?_eq_getElem (l := y) (i := m) (by omega)
    rw [e1] at hx''
    rw [e2] at hy''
    simp only [Option.map_some, Option.some.injEq] at hx'' hy''
    exact ⟨_, _, List.getElem?_zip_eq_some.2 ⟨e1, e2⟩, hx''.symm, hy''.symm⟩

theorem scatter_does (hr : Rdy) (hdraw : DrawOk draw) {k : Option Bool} {v : Vis α} (h : J k v) (q : Quantity) :
    Does J (scatterPlot draw q) v (k <|> q.asks) fun out v' => ∃ p, v'.positions = some p ∧ DrawnAt sizes labels p (shownBy n1 n2 own harm ms.mu.ks (k <|> q.asks) q) t out := by
  unfold scatterPlot
  refine Does.bind (getSamples_does hr hdraw h q) ?_
  rintro ys v1 h1 - ⟨p, hp, hy⟩
  refine Does.bind (getTimesSamples_does hr hdraw h1) ?_
  rintro xs v2 h2 m2 ⟨p', hp', hx⟩
  rw [m2 p hp] at hp'
  cases hp'
  have hp2 := m2 p hp
  refine Does.bind (getTotal_does h2) ?_
  rintro n v3 h3 - ⟨rfl, e3⟩
  rw [hp2] at e3
  rw [e3]
  refine Does.bind (getLabels_does hr h3) ?_
  rintro l v4 h4 m4 ⟨rfl, e4⟩
  obtain ⟨out, ho, ho'⟩ := plotLists_ok hr.h_some hr.h_llen (h4.i_positions p (m4 p e3)).1 hy hx
  exact Does.lift ho h4 ⟨p, m4 p e3, ho'⟩

theorem scatterPair_does (hr : Rdy) (hdraw : DrawOk draw) {k : Option Bool} {v : Vis α} (h : J k v) (q1 q2 : Quantity) (hq : (k <|> q1.asks) = ((k <|> q1.asks) <|> q2.asks)) :
    Does J (scatterPair draw q1 q2) v (k <|> q1.asks) fun out v' => ∃ p, v'.positions = some p ∧
      DrawnAt sizes labels p (shownBy n1 n2 own harm ms.mu.ks (k <|> q1.asks) q1) (shownBy n1 n2 own harm ms.mu.ks (k <|> q1.asks) q2) out := by
  unfold scatterPair
  refine Does.bind (getSamples_does hr hdraw h q1) ?_
  rintro ys v1 h1 - ⟨p, hp, hy⟩
  refine Does.bind (by have := getSamples_does hr hdraw h1 q2; rw [← hq] at this; exact this) ?_
  rintro xs v2 h2 m2 ⟨p', hp', hx⟩
  rw [m2 p hp] at hp'
  cases hp'
  have hp2 := m2 p hp
  refine Does.bind (getTotal_does h2) ?_
  rintro n v3 h3 - ⟨-, e3⟩
  rw [hp2] at e3
  refine Does.bind (getLabels_does hr h3) ?_
  rintro l v4 h4 m4 ⟨rfl, e4⟩
  obtain ⟨out, ho, ho'⟩ := plotLists_ok hr.h_some hr.h_llen (h4.i_positions p (m4 p e3)).1 hy hx
  exact Does.lift ho h4 ⟨p, m4 p e3, ho'⟩

/-- What is drawn for monthly means: for each series its label and its means against the months. -/
def DrawnMonthly (labels : List String) (l : List (List (α × DateTime))) (out : List (String × List (DateTime × α))) : Prop :=
  out.length = l.length ∧ ∀ (i : Nat) (s : List (α × DateTime)), l[i]? = some s → ∃ label, labels[i]? = some label ∧ out[i]? = some (label, s.map fun e => (e.2, e.1))


theorem plotMonthly_ok {l : List (List (α × DateTime))} (hne : l ≠ []) (hll : labels.length = l.length) :
    ∃ out, plotLists (l.map fun s => s.map (·.1)) (l.map fun s => s.map (·.2)) labels = .ok out ∧ DrawnMonthly labels l out := by
  have hpos : 0 < l.length := List.length_pos_iff.2 hne
  have hzip : ∀ s : List (α × DateTime), (s.map (·.2)).zip (s.map (·.1)) = s.map fun e => (e.2, e.1) := by
    intro s
    induction s with
    | nil => rfl
    | cons a s ih => simpa using ih
  have hok : ∀ q ∈ ((l.map fun s => s.map (·.2)).zip (l.map fun s => s.map (·.1))).zipIdx, ∃ b, (do
      let label ← pyGet labels q.2
      if q.1.1.length = q.1.2.length then (pure (label, q.1.1.zip q.1.2) : Py (String × List (DateTime × α))) else .error .valueError) = .ok b := by
    rintro ⟨⟨x, y⟩, i⟩ hq
    rw [List.mem_zipIdx_iff_getElem?, List.getElem?_zip_eq_some, List.getElem?_map, List.getElem?_map] at hq
    obtain ⟨h1, h2⟩ := hq
    simp only at h1 h2
    cases hs : l[i]? with
    | none => rw [hs] at h1; cases h1
    | some s =>
      rw [hs] at h1 h2
      simp only [Option.map_some, Option.some.injEq] at h1 h2
      have hi : i < labels.length := by rw [hll]; exact (List.getElem?_eq_some_iff.1 hs).1
      exact ⟨_, bind_ok.2 ⟨_, pyGet_ok.2 (List.getElem?_eq_getElem hi), by simp only; rw [if_pos (by rw [← h1, ← h2]; simp)]; rfl⟩⟩
  obtain ⟨out, ho⟩ := mapM_all_ok hok
  refine ⟨out, ?_, ?_⟩
  · unfold plotLists
    refine bind_ok.2 ⟨_, pyGet_ok.2 (List.getElem?_eq_getElem (by simpa using hpos)), bind_ok.2 ⟨_, pyGet_ok.2 (List.getElem?_eq_getElem (by simpa using hpos)), ho⟩⟩
  · obtain ⟨g1, g2⟩ := mapM_ok_get ho
    refine ⟨by rw [g1]; simp, ?_⟩
    intro i s hs
    obtain ⟨b, hb, hb'⟩ := g2 i ((s.map (·.2), s.map (·.1)), i) (by
      rw [List.getElem?_zipIdx, List.getElem?_zip_eq_some (z := (s.map (·.2), s.map (·.1))) |>.2 ⟨by rw [List.getElem?_map, hs]; rfl, by rw [List.getElem?_map, hs]; rfl⟩]; simp)
    obtain ⟨label, hlab, hb⟩ := bind_ok.1 hb
    simp only at hb hlab
    rw [if_pos (by simp)] at hb
    obtain rfl := Except.ok.inj hb
    exact ⟨label, pyGet_ok.1 hlab, by rw [hb', hzip]⟩

theorem monthlyOf_length {x : Idx} (hc : x.cNm = prefixSums sizes) {vals : List α} {l : List (List (α × DateTime))} (h : monthlyOf x fuel t vals = .ok l) : l.length = sizes.length := by
  unfold monthlyOf at h
  rw [seriesBounds_eq hc] at h
  rw [(mapM_ok_get h).1]
  simp

theorem scatterMonthly_does (hr : Rdy) (hfuel : FuelOk ms n1 n2 own harm t fuel) {k : Option Bool} {v : Vis α} (h : J k v) (q : Quantity) :
    Does J (scatterMonthly fuel q) v (k <|> q.asks) fun out _ => ∃ l, monthlyOf ms.mu.idx fuel t (shownBy n1 n2 own harm ms.mu.ks (k <|> q.asks) q) = .ok l ∧ DrawnMonthly labels l out := by
  unfold scatterMonthly
  refine Does.bind (getMonthly_does hr hfuel h q) ?_
  rintro l v1 h1 - hl
  refine Does.bind (getLabels_does hr h1) ?_
  rintro b v2 h2 - ⟨rfl, -⟩
  have hlen := monthlyOf_length hr.h_cNm hl
  obtain ⟨out, ho, ho'⟩ := plotMonthly_ok (labels := b) (l := l) (by rintro rfl; exact hr.h_some (List.length_eq_zero_iff.1 hlen.symm)) (by rw [hlen]; exact hr.h_llen)
  exact Does.lift ho h2 ⟨l, hl, ho'⟩

/-- A computation that keeps the invariant whatever it returns. -/
def Keeps {β : Type} (I : Option Bool → Vis α → Prop) (x : VisM α β) (v : Vis α) (k' : Option Bool) : Prop :=
  I k' (x v).2 ∧ ∀ p, v.positions = some p → (x v).2.positions = some p


theorem Does.keeps {β : Type} {I : Option Bool → Vis α → Prop} {x : VisM α β} {v : Vis α} {k' : Option Bool} {Q : β → Vis α → Prop} (h : Does I x v k' Q) : Keeps I x v k' := by
  obtain ⟨b, v', e1, e2, e3, -⟩ := h
  unfold Keeps
  rw [e1]
  exact ⟨e2, e3⟩


theorem Does.out {β γ : Type} {I : Option Bool → Vis α → Prop} {x : VisM α β} {v : Vis α} {k' : Option Bool} {Q : β → Vis α → Prop} (h : Does I x v k' Q) (f : β → γ) :
    Keeps I (x >>= fun b => Pure.pure (f b)) v k' :=
  (Does.bind h (R := fun _ _ => True) fun _ _ h1 _ _ => Does.pure h1 trivial).keeps


theorem Keeps.bind {β γ : Type} {I : Option Bool → Vis α → Prop} {x : VisM α β} {f : β → VisM α γ} {v : Vis α} {k1 k2 : Option Bool} {Q : β → Vis α → Prop}
    (h : Does I x v k1 Q) (hf : ∀ b v1, I k1 v1 → Q b v1 → Keeps I (f b) v1 k2) : Keeps I (x >>= f) v k2 := by
  obtain ⟨b, v', e1, e2, e3, e4⟩ := h
  obtain ⟨g1, g2⟩ := hf b v' e2 e4
  have : (x >>= f) v = f b v' := by
    show VisM.andThen x f v = _
    unfold VisM.andThen
    rw [e1]
  unfold Keeps
  rw [this]
  exact ⟨g1, fun p hp => g2 p (e3 p hp)⟩

/-- Every call keeps the invariant. -/
theorem exec_keeps (hr : Rdy) (hdraw : DrawOk draw) (hfuel : FuelOk ms n1 n2 own harm t fuel) {k : Option Bool} {v : Vis α} (h : J k v) (c : VisCall) :
    Keeps J (c.exec draw fuel) v (k <|> c.asks) := by
  have hn : ∀ k : Option Bool, (k <|> none) = k := orElse_none
  cases c with
  | full q => exact (getFull_does hr h q).out _
  | samples q => exact (getSamples_does hr hdraw h q).out _
  | monthly q => exact (getMonthly_does hr hfuel h q).out _
  | times => simp only [VisCall.asks, hn]; exact (getTimes_does hr.h_time h).out _
  | timesSamples => simp only [VisCall.asks, hn]; exact (getTimesSamples_does hr hdraw h).out _
  | positions => simp only [VisCall.asks, hn]; exact (getPositions_does hr hdraw h).out _
  | total => simp only [VisCall.asks, hn]; exact (getTotal_does h).out _
  | muTotal => simp only [VisCall.asks, hn]; exact (getMuTotal_does hr h).out _
  | labels => simp only [VisCall.asks, hn]; exact (getLabels_does hr h).out _
  | suffixes => simp only [VisCall.asks, hn]; exact (getSuffixes_does hr h).out _
  | scatter q => exact (scatter_does hr hdraw h q).out _
  | scatterMonthly q => exact (scatterMonthly_does hr hfuel h q).out _
  | scatterNominal =>
    have := (scatterPair_does hr hdraw h .L1_nom .L2_nom (by cases k <;> rfl)).out (γ := VisOut α) .pairs
    exact this
  | scatterHarmonised => exact (scatterPair_does hr hdraw h .L1_harm .L2_harm (by cases k <;> rfl)).out _
  | density q =>
    have herr : ∀ (v1 : Vis α) (k1 : Option Bool), J k1 v1 → Keeps J (VisM.lift (.error .attributeError : Py Unit) >>= fun _ => (pure .nothing : VisM α (VisOut α))) v1 k1 :=
      fun v1 k1 h1 => ⟨h1, fun _ h => h⟩
    show Keeps J ((do
      let _ ← getSamples draw q
      let _ ← getTimesSamples draw
      let _ ← getMuTotal
      VisM.lift (.error .attributeError : Py Unit)) >>= fun _ => (pure .nothing : VisM α (VisOut α))) v _
    have hassoc : ∀ {β γ ε : Type} (x : VisM α β) (f : β → VisM α γ) (g : γ → VisM α ε), (x >>= f) >>= g = x >>= fun b => f b >>= g := by
      intro β γ ε x f g
      funext v
      show VisM.andThen (VisM.andThen x f) g v = VisM.andThen x (fun b => VisM.andThen (f b) g) v
      unfold VisM.andThen
      cases hx : x v with
      | mk o v' => cases o <;> rfl
    rw [hassoc]
    refine Keeps.bind (getSamples_does hr hdraw h q) fun _ v1 h1 _ => ?_
    rw [hassoc]
    refine Keeps.bind (getTimesSamples_does hr hdraw h1) fun _ v2 h2 _ => ?_
    rw [hassoc]
    refine Keeps.bind (getMuTotal_does hr h2) fun _ v3 h3 _ => ?_
    exact herr v3 _ h3

theorem after_inv (hr : Rdy) (hdraw : DrawOk draw) (hfuel : FuelOk ms n1 n2 own harm t fuel) : ∀ (calls : List VisCall) (k : Option Bool) (v : Vis α), J k v →
    J (k <|> calls.findSome? VisCall.asks) (v.after draw fuel calls) ∧ ∀ p, v.positions = some p → (v.after draw fuel calls).positions = some p
  | [], k, v, h => by
    simp only [List.findSome?_nil, orElse_none]
    exact ⟨h, fun _ h => h⟩
  | c :: calls, k, v, h => by
    obtain ⟨h1, h2⟩ := exec_keeps hr hdraw hfuel h c
    obtain ⟨h3, h4⟩ := after_inv hr hdraw hfuel calls _ _ h1
    refine ⟨?_, fun p hp => h4 p (h2 p hp)⟩
    have : (k <|> (c :: calls).findSome? VisCall.asks) = ((k <|> c.asks) <|> calls.findSome? VisCall.asks) := by
      rw [List.findSome?_cons]
      cases k <;> cases c.asks <;> rfl
    rw [this]
    exact h3

end
end Verif
