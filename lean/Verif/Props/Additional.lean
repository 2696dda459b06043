import Verif.Model.Additional
import Verif.Props.Reader
/-
Property C96: the largest and smallest value of an additional variable, and the closing of a match-up.
-/
set_option autoImplicit false
namespace Verif
variable {α δ : Type}

/-! ### Specification -/

/-- A comparison of floating point numbers: nothing compares with nan; the other numbers are weakly ordered (zeros of different sign are
neither less nor greater). -/
structure FloatLess (lt : α → α → Bool) (nan : α) : Prop where
  nan_left : ∀ x, lt nan x = false
  nan_right : ∀ x, lt x nan = false
  irrefl : ∀ x, lt x x = false
  asymm : ∀ x y, lt x y = true → lt y x = false
  trans : ∀ x y z, lt x y = true → lt y z = true → lt x z = true
  negTrans : ∀ x y z, x ≠ nan → y ≠ nan → z ≠ nan → lt x y = false → lt y z = false → lt x z = false

/-- `m` is the first largest value of `l` among those present (not nan). -/
def FirstLargest (lt : α → α → Bool) (nan : α) (l : List α) (m : α) : Prop :=
  m ≠ nan ∧ (∀ v ∈ l, lt m v = false) ∧ ∃ before after, l = before ++ m :: after ∧ ∀ v ∈ before, v ≠ nan → lt v m = true

/-- `m` is the first smallest value of `l` among those present (not nan). -/
def FirstSmallest (lt : α → α → Bool) (nan : α) (l : List α) (m : α) : Prop :=
  m ≠ nan ∧ (∀ v ∈ l, lt v m = false) ∧ ∃ before after, l = before ++ m :: after ∧ ∀ v ∈ before, v ≠ nan → lt m v = true

/-- What `max` of a list gives: nothing of an empty list, nan if the first value is nan, else the first largest value present. -/
def MaxIs (lt : α → α → Bool) (nan : α) (l : List α) (r : Py α) : Prop :=
  (l = [] → r = .error .valueError) ∧ (∀ xs, l = nan :: xs → r = .ok nan) ∧
    ∀ x xs, l = x :: xs → x ≠ nan → ∃ m, r = .ok m ∧ FirstLargest lt nan l m

/-- What `min` of a list gives. -/
def MinIs (lt : α → α → Bool) (nan : α) (l : List α) (r : Py α) : Prop :=
  (l = [] → r = .error .valueError) ∧ (∀ xs, l = nan :: xs → r = .ok nan) ∧
    ∀ x xs, l = x :: xs → x ≠ nan → ∃ m, r = .ok m ∧ FirstSmallest lt nan l m

/-! ### Proof -/

theorem foldl_keep {lt : α → α → Bool} {nan : α} (hnan : ∀ x, lt nan x = false) (xs : List α) :
    xs.foldl (fun m v => if lt m v then v else m) nan = nan := by
  induction xs with
  | nil => rfl
  | cons y ys ih => simp only [List.foldl_cons, hnan, Bool.false_eq_true, if_false]; exact ih

theorem firstLargest_foldl {lt : α → α → Bool} {nan : α} (h : FloatLess lt nan) (xs : List α) : ∀ (l : List α) (m : α),
    FirstLargest lt nan l m → FirstLargest lt nan (l ++ xs) (xs.foldl (fun m v => if lt m v then v else m) m) := by
  induction xs with
  | nil => intro l m hm; simpa using hm
  | cons y ys ih =>
    intro l m hm
    rw [List.foldl_cons, show l ++ y :: ys = (l ++ [y]) ++ ys by simp]
    apply ih
    obtain ⟨hmn, hle, before, after, hl, hb⟩ := hm
    by_cases hy : lt m y = true
    · rw [if_pos hy]
      have hyn : y ≠ nan := fun e => by rw [e, h.nan_right] at hy; cases hy
      have hlt : ∀ v ∈ l, v ≠ nan → lt v y = true := by
        intro v hv hvn
        by_contra hc
        have hc' : lt v y = false := by simpa using hc
        have := h.negTrans m v y hmn hvn hyn (hle v hv) hc'
        rw [this] at hy; cases hy
      refine ⟨hyn, ?_, l, [], rfl, hlt⟩
      intro v hv
      rcases List.mem_append.1 hv with hv | hv
      · by_cases hvn : v = nan
        · rw [hvn]; exact h.nan_right _
        · exact h.asymm _ _ (hlt v hv hvn)
      · rw [List.mem_singleton] at hv; rw [hv]; exact h.irrefl _
    · rw [if_neg hy]
      refine ⟨hmn, ?_, before, after ++ [y], by rw [hl]; simp, hb⟩
      intro v hv
      rcases List.mem_append.1 hv with hv | hv
      · exact hle v hv
      · rw [List.mem_singleton] at hv; rw [hv]; simpa using hy

theorem pyMaxLt_spec {lt : α → α → Bool} {nan : α} (h : FloatLess lt nan) (l : List α) : MaxIs lt nan l (pyMaxLt lt l) := by
  refine ⟨?_, ?_, ?_⟩
  · rintro rfl; rfl
  · rintro xs rfl
    simp only [pyMaxLt]
    rw [foldl_keep h.nan_left]
  · rintro x xs rfl hx
    refine ⟨_, rfl, ?_⟩
    have := firstLargest_foldl h xs [x] x ⟨hx, by simp [h.irrefl], [], [], rfl, by simp⟩
    simpa using this

/-- The comparison the other way round. -/
theorem FloatLess.flip {lt : α → α → Bool} {nan : α} (h : FloatLess lt nan) : FloatLess (fun a b => lt b a) nan where
  nan_left := h.nan_right
  nan_right := h.nan_left
  irrefl := h.irrefl
  asymm := fun x y => h.asymm y x
  trans := fun x y z h1 h2 => h.trans z y x h2 h1
  negTrans := fun x y z hx hy hz h1 h2 => h.negTrans z y x hz hy hx h2 h1

theorem pyMinLt_eq (lt : α → α → Bool) (l : List α) : pyMinLt lt l = pyMaxLt (fun a b => lt b a) l := by
  cases l <;> rfl

theorem pyMinLt_spec {lt : α → α → Bool} {nan : α} (h : FloatLess lt nan) (l : List α) : MinIs lt nan l (pyMinLt lt l) := by
  rw [pyMinLt_eq]
  exact pyMaxLt_spec h.flip l

/-! ### C96 -/

section
variable [Zero α] [DecidableEq α]

/-- **C96, names.** The names given are exactly the non-standard per-match-up variables of the files, each once. -/
theorem C96_names (env : ReadEnv α δ) (he : EnumOk env.enumStr) (ds : List (Dataset α)) (mu : MatchUp α δ)
    (h : openMatchUp env ds = .ok mu) :
    ∃ names, mu.getAdditionalDataNames = .ok names ∧ names.Nodup ∧
      ∀ n, n ∈ names ↔ n ∉ standardVariableNames ∧ ∃ d ∈ ds, ∃ v, (n, v) ∈ d.vars ∧ v.dims = ["M"] := by
  obtain ⟨names, h1, h2, h3⟩ := C07_names env he ds mu h
  exact ⟨names, by unfold MatchUp.getAdditionalDataNames; rw [h1], h2, h3⟩

/-- **C96 (partial).** The largest and the smallest value of an additional variable, of a series or of all series, are those of the values
the files hold - provided that the first value is present: see `C96_first_missing`. -/
theorem C96_extremes_partial (env : ReadEnv α δ) (he : EnumOk env.enumStr) {lt : α → α → Bool} (hlt : FloatLess lt env.nan)
    (ds : List (Dataset α)) (mu : MatchUp α δ) (h : openMatchUp env ds = .ok mu) (hs : ∀ n, ShapedVar ds n) (names : List String)
    (hn : mu.getAdditionalDataNames = .ok names) (name : String) (hmem : name ∈ names) :
    (MaxIs lt env.nan (ds.map (additionalData env name)).flatten (mu.getAdditionalDataMax lt name none) ∧
      MinIs lt env.nan (ds.map (additionalData env name)).flatten (mu.getAdditionalDataMin lt name none)) ∧
    ∀ (i : Nat) (d : Dataset α), ds[i]? = some d →
      MaxIs lt env.nan (additionalData env name d) (mu.getAdditionalDataMax lt name (some (i + 1))) ∧
      MinIs lt env.nan (additionalData env name d) (mu.getAdditionalDataMin lt name (some (i + 1))) := by
  have hn' : mu.idx.additional_values_name = some names := by
    unfold MatchUp.getAdditionalDataNames at hn
    cases hv : mu.idx.additional_values_name with
    | none => rw [hv] at hn; cases hn
    | some n => rw [hv] at hn; cases hn; rfl
  obtain ⟨h1, h2⟩ := C07_values env he ds mu h hs names hn' name hmem
  unfold MatchUp.getAdditionalDataMax MatchUp.getAdditionalDataMin
  refine ⟨?_, ?_⟩
  · rw [h1]; exact ⟨pyMaxLt_spec hlt _, pyMinLt_spec hlt _⟩
  · intro i d hd
    rw [h2 i d hd]; exact ⟨pyMaxLt_spec hlt _, pyMinLt_spec hlt _⟩

/-- **C96 is false of the code:** whatever values the other match-ups hold, both extremes over all series are nan if the first file, with at
least one match-up, lacks the variable or has a fill value first. -/
theorem C96_first_missing (env : ReadEnv α δ) (he : EnumOk env.enumStr) {lt : α → α → Bool} (hlt : FloatLess lt env.nan)
    (d : Dataset α) (ds : List (Dataset α)) (mu : MatchUp α δ) (h : openMatchUp env (d :: ds) = .ok mu)
    (hs : ∀ n, ShapedVar (d :: ds) n) (names : List String) (hn : mu.getAdditionalDataNames = .ok names) (name : String)
    (hmem : name ∈ names)
    (hmiss : (d.var? name = none ∧ 0 < d.M) ∨ ∃ v xs, d.var? name = some v ∧ v.data = env.fill :: xs) :
    mu.getAdditionalDataMax lt name none = .ok env.nan ∧ mu.getAdditionalDataMin lt name none = .ok env.nan := by
  obtain ⟨⟨h1, h2⟩, -⟩ := C96_extremes_partial env he hlt _ mu h hs names hn name hmem
  have hl : ∃ ys, ((d :: ds).map (additionalData env name)).flatten = env.nan :: ys := by
    rcases hmiss with ⟨hv, hM⟩ | ⟨v, xs, hv, hx⟩
    · obtain ⟨n, hn⟩ : ∃ n, d.M = n + 1 := ⟨d.M - 1, by omega⟩
      rw [List.map_cons, List.flatten_cons]
      refine ⟨List.replicate n env.nan ++ (ds.map (additionalData env name)).flatten, ?_⟩
      unfold additionalData
      simp only [hv, hn, List.replicate_succ, List.cons_append]
    · rw [List.map_cons, List.flatten_cons]
      refine ⟨(xs.map fun y => if y = env.fill then env.nan else y) ++ (ds.map (additionalData env name)).flatten, ?_⟩
      conv_lhs => unfold additionalData
      simp only [hv, hx, List.map_cons, if_true, List.cons_append]
      rfl
  obtain ⟨ys, hl⟩ := hl
  exact ⟨h1.2.1 ys hl, h2.2.1 ys hl⟩

/-- **C96, unknown variables.** A name no file has raises `ValueError`. -/
theorem C96_unknown (env : ReadEnv α δ) (lt : α → α → Bool)
    (ds : List (Dataset α)) (mu : MatchUp α δ) (h : openMatchUp env ds = .ok mu) (names : List String)
    (hn : mu.getAdditionalDataNames = .ok names) (name : String) (hmem : name ∉ names) (n : Option Nat)
    (hr : ∀ k, n = some k → 1 ≤ k ∧ k ≤ ds.length) :
    mu.getAdditionalDataMax lt name n = .error .valueError ∧ mu.getAdditionalDataMin lt name n = .error .valueError := by
  have hn' : mu.idx.additional_values_name = some names := by
    unfold MatchUp.getAdditionalDataNames at hn
    cases hv : mu.idx.additional_values_name with
    | none => rw [hv] at hn; cases hn
    | some n => rw [hv] at hn; cases hn; rfl
  have hg : mu.getAdditionalData name n = .error .valueError := by
    obtain ⟨x, mx, hx, hf⟩ := getIdx_facts (openMatchUp_nonempty h)
    obtain ⟨x', hx', _, _, _, _, _, _, _, _, _, _, _, hidx, _⟩ := openMatchUp_inv h
    rw [hx] at hx'; cases hx'
    unfold MatchUp.getAdditionalData
    cases n with
    | none => simp only [bind, Except.bind, hn', pyIndex, if_neg hmem]
    | some k =>
      obtain ⟨h1, h2⟩ := hr k rfl
      have hc : mu.idx.cNm = x.cNm := by rw [hidx]
      rw [hc]
      simp only [bind, Except.bind, hn', pyIndex, if_neg hmem, pyGet, pure, Except.pure,
        hf.cNm_get (show k - 1 ≤ ds.length by omega), hf.cNm_get h2]
  unfold MatchUp.getAdditionalDataMax MatchUp.getAdditionalDataMin
  rw [hg]
  exact ⟨rfl, rfl⟩

end

/-! ### Closing -/

theorem del_all {V : Type} : ∀ (ks : List String) (o : Attrs V), ks.Nodup → (∀ k ∈ ks, k ∈ o.map (·.1)) →
    ks.foldlM (fun a n => Attrs.del a n) o = .ok (o.filter fun e => decide (e.1 ∉ ks)) := by
  intro ks
  induction ks with
  | nil => intro o _ _; simp [pure, Except.pure]
  | cons k ks ih =>
    intro o hnd hin
    rw [List.nodup_cons] at hnd
    rw [List.foldlM_cons]
    unfold Attrs.del
    rw [if_pos (hin k (by simp))]
    show List.foldlM _ _ ks = _
    have := ih (o.filter fun e => e.1 ≠ k) hnd.2 (by
      intro k' hk'
      obtain ⟨e, he, rfl⟩ := List.mem_map.1 (hin k' (by simp [hk']))
      refine List.mem_map.2 ⟨e, List.mem_filter.2 ⟨he, ?_⟩, rfl⟩
      have : e.1 ≠ k := fun hc => hnd.1 (hc ▸ hk')
      simpa using this)
    unfold Attrs.del at this
    rw [this, List.filter_filter]
    congr 1
    apply List.filter_congr
    intro e _
    by_cases h1 : e.1 = k <;> by_cases h2 : e.1 ∈ ks <;> simp [h1, h2]

/-- The names of the attributes of an object are different. -/
theorem close_eq {V : Type} (yes : V) (o : Attrs V) (hnd : (o.map (·.1)).Nodup) : o.close yes = .ok [("closed", yes)] := by
  unfold Attrs.close
  rw [del_all _ o hnd (fun _ h => h)]
  have hf : (o.filter fun e => decide (e.1 ∉ o.map (·.1))) = [] := by
    apply List.filter_eq_nil_iff.2
    intro e he
    have : e.1 ∈ o.map (·.1) := List.mem_map.2 ⟨e, he, rfl⟩
    simp only [this, not_true_eq_false, decide_false, Bool.false_eq_true, not_false_eq_true]
  rw [hf]
  rfl

/-- **C96, closing.** Closing a match-up succeeds, again and again; afterwards every attribute but `closed` raises `AttributeError`; a `with` block
closes the match-up also when its body raises, and gives what the body gives. -/
theorem C96_close {V β : Type} (yes : V) (o : Attrs V) (hnd : (o.map (·.1)).Nodup) :
    ∃ o', o.close yes = .ok o' ∧ o'.get "closed" = .ok yes ∧ (∀ n, n ≠ "closed" → o'.get n = .error .attributeError) ∧ o'.close yes = .ok o' ∧
      ∀ body : Attrs V → Py β × Attrs V, ((body o).2.map (·.1)).Nodup → o.withObject yes body = ((body o).1, o') := by
  refine ⟨_, close_eq yes o hnd, rfl, ?_, close_eq yes _ (by simp), ?_⟩
  · intro n hn
    unfold Attrs.get
    have : (n == "closed") = false := by simpa using hn
    simp [List.lookup, this]
  · intro body hb
    unfold Attrs.withObject
    simp only
    rw [close_eq yes _ hb]

/-! ### A concrete case -/
namespace Fixture

/-- The comparison of the fixture, whose nan is -99. -/
def less (a b : Int) : Bool := decide (a ≠ -99 ∧ b ≠ -99 ∧ a < b)

theorem less_ok : FloatLess less env.nan := by
  have e : env.nan = -99 := rfl
  rw [e]
  constructor <;> intro x <;> simp only [less, decide_eq_false_iff_not, decide_eq_true_eq] <;> first | omega | (intro y; omega) | (intro y z; omega)

/-- Three match-ups with the variable `lat1`, one of them missing; then two match-ups without it. -/
def withLat : Dataset Int := file 3 (side "A" 1 0 1) (side "B" 2 1000 1) [("lat1", ⟨["M"], [5, -1, 6]⟩)]
def noLat : Dataset Int := file 2 (side "B" 2 5000 2) (side "C" 2 9000 2) []

end Fixture

/-- **C96, concrete case:** the same two files give the extremes 6 and 5 in one order and nan in the other. -/
theorem C96_case : FloatLess Fixture.less Fixture.env.nan ∧
    (∃ mu, openMatchUp Fixture.env [Fixture.withLat, Fixture.noLat] = .ok mu ∧ mu.getAdditionalDataNames = .ok ["lat1"] ∧
      mu.getAdditionalDataMax Fixture.less "lat1" none = .ok 6 ∧ mu.getAdditionalDataMin Fixture.less "lat1" none = .ok 5) ∧
    ∃ mu, openMatchUp Fixture.env [Fixture.noLat, Fixture.withLat] = .ok mu ∧ mu.getAdditionalDataNames = .ok ["lat1"] ∧
      mu.getAdditionalDataMax Fixture.less "lat1" none = .ok (-99) ∧ mu.getAdditionalDataMin Fixture.less "lat1" none = .ok (-99) ∧
      mu.getAdditionalDataMax Fixture.less "lat1" (some 2) = .ok 6 :=
  ⟨Fixture.less_ok, ⟨_, rfl, by decide, by decide, by decide⟩, ⟨_, rfl, by decide, by decide, by decide, by decide⟩⟩

/-- The hypotheses of `C96_first_missing` are met by these files. -/
example : (Fixture.noLat.var? "lat1" = none ∧ 0 < Fixture.noLat.M) ∧ ∀ n, ShapedVar [Fixture.noLat, Fixture.withLat] n := by
  refine ⟨by decide, ?_⟩
  intro n d hd v hv
  simp only [List.mem_cons, List.not_mem_nil, or_false] at hd
  rcases hd with rfl | rfl
  · simp [Fixture.noLat, Fixture.file, Dataset.var?] at hv
  · simp [Fixture.withLat, Fixture.file, Dataset.var?] at hv ⊢
    rw [← hv.2]; rfl

example : (([("values", 1), ("idx", 2)] : Attrs Nat).map (·.1)).Nodup := by decide

end Verif
