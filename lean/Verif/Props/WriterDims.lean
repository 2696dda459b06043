import Verif.Props.Writer
/-
Property C69: additional variables over any of the dimensions of the file (match-ups, covariates of either sensor).
-/
set_option autoImplicit false
namespace Verif
variable {α : Type}

/-- The dimensions a match-up file has, with their sizes. -/
def FileArrays.dimensions (f : FileArrays α) : List (String × Nat) :=
  [("M", f.s1.X.nrows), ("m1", f.s1.X.ncols), ("m2", f.s2.X.ncols)]

/-- The variable is over dimensions of the file, and has one value for every element. -/
def FileArrays.FitsVar (f : FileArrays α) (v : NcVar α) : Prop :=
  ∃ sizes : List Nat, List.Forall₂ (fun n k => (n, k) ∈ f.dimensions) v.dims sizes ∧ v.data.length = sizes.prod

theorem dimSize_ok {f : FileArrays α} {n : String} {k : Nat} : dimSize f.s1.X.nrows f.s1.X.ncols f.s2.X.ncols n = .ok k ↔ (n, k) ∈ f.dimensions := by
  unfold dimSize FileArrays.dimensions
  by_cases h1 : n = "M"
  · subst h1; simp [eq_comm]
  · by_cases h2 : n = "m1"
    · subst h2; simp [eq_comm]
    · by_cases h3 : n = "m2"
      · subst h3; simp [eq_comm]
      · simp [h1, h2, h3]

theorem mapM_dimSize {f : FileArrays α} : ∀ {dims : List String} {sizes : List Nat},
    dims.mapM (dimSize f.s1.X.nrows f.s1.X.ncols f.s2.X.ncols) = .ok sizes ↔ List.Forall₂ (fun n k => (n, k) ∈ f.dimensions) dims sizes
  | [], sizes => by
    simp only [List.mapM_nil, pure, Except.pure]
    constructor
    · intro h; cases h; exact .nil
    · intro h; cases h; rfl
  | n :: dims, sizes => by
    rw [List.mapM_cons]
    constructor
    · intro h
      obtain ⟨k, hk, h⟩ := bind_ok.1 h
      obtain ⟨ks, hks, h⟩ := bind_ok.1 h
      cases h
      exact .cons (dimSize_ok.1 hk) (mapM_dimSize.1 hks)
    · intro h
      cases h with
      | cons h1 h2 => exact bind_ok.2 ⟨_, dimSize_ok.2 h1, bind_ok.2 ⟨_, mapM_dimSize.2 h2, rfl⟩⟩

theorem writeAdditional_iff [Zero α] {f : FileArrays α} {acc : List (String × NcVar α)} {v : String × NcVar α} (h1 : v.2.data.length ≠ 1) {r : List (String × NcVar α)} :
    writeAdditional f.s1.X.nrows f.s1.X.ncols f.s2.X.ncols acc v = .ok r ↔ r = acc ++ [v] ∧ v.1 ∉ writtenNames ∧ v.1 ∉ acc.map (·.1) ∧ f.FitsVar v.2 := by
  unfold writeAdditional
  by_cases hn : v.1 ∈ writtenNames ∨ v.1 ∈ acc.map (·.1)
  · rw [if_pos hn]
    constructor
    · intro h; cases h
    · rintro ⟨_, a, b, _⟩; exact absurd hn (by tauto)
  · rw [if_neg hn]
    push Not at hn
    constructor
    · intro h
      obtain ⟨sizes, hs, h⟩ := bind_ok.1 h
      obtain ⟨data, hd, h⟩ := bind_ok.1 h
      have hl : v.2.data.length = sizes.prod := by
        unfold putList at hd
        by_contra hne
        rw [if_neg hne] at hd
        split at hd
        · rename_i x e; rw [e] at h1; exact h1 rfl
        · cases hd
      rw [putList_ok hl] at hd
      cases hd
      rw [range_getD hl] at h
      cases h
      exact ⟨rfl, hn.1, hn.2, sizes, mapM_dimSize.1 hs, hl⟩
    · rintro ⟨rfl, _, _, sizes, hs, hl⟩
      refine bind_ok.2 ⟨sizes, mapM_dimSize.2 hs, bind_ok.2 ⟨_, putList_ok hl, ?_⟩⟩
      rw [range_getD hl]
      rfl

theorem writeAdditional_fold_iff [Zero α] {f : FileArrays α} : ∀ {vs acc r : List (String × NcVar α)}, (∀ v ∈ vs, v.2.data.length ≠ 1) → (acc.map (·.1)).Nodup →
    (vs.foldlM (writeAdditional f.s1.X.nrows f.s1.X.ncols f.s2.X.ncols) acc = .ok r ↔
      r = acc ++ vs ∧ (∀ v ∈ vs, v.1 ∉ writtenNames ∧ f.FitsVar v.2) ∧ ((acc ++ vs).map (·.1)).Nodup)
  | [], acc, r, _, hn => by
    simp only [List.foldlM_nil, pure, Except.pure, Except.ok.injEq, List.append_nil]
    constructor
    · rintro rfl; exact ⟨rfl, by simp, hn⟩
    · rintro ⟨rfl, _⟩; rfl
  | v :: vs, acc, r, h1, hn => by
    rw [List.foldlM_cons]
    constructor
    · intro h
      obtain ⟨a, ha, h⟩ := bind_ok.1 h
      obtain ⟨rfl, b1, b2, b3⟩ := (writeAdditional_iff (h1 v (by simp))).1 ha
      have hn' : ((acc ++ [v]).map (·.1)).Nodup := by
        rw [List.map_append, List.nodup_append]
        refine ⟨hn, by simp, ?_⟩
        intro x hx y hy
        simp only [List.map_cons, List.map_nil, List.mem_singleton] at hy
        subst hy
        rintro rfl
        exact b2 hx
      obtain ⟨rfl, c1, c2⟩ := (writeAdditional_fold_iff (fun w hw => h1 w (by simp [hw])) hn').1 h
      refine ⟨by simp, ?_, by simpa using c2⟩
      intro w hw
      rcases List.mem_cons.1 hw with rfl | hw
      · exact ⟨b1, b3⟩
      · exact c1 w hw
    · rintro ⟨rfl, c1, c2⟩
      have e : ((acc ++ [v] ++ vs).map (·.1)).Nodup := by simpa using c2
      have hn' : ((acc ++ [v]).map (·.1)).Nodup := by
        rw [List.map_append, List.nodup_append] at e
        exact e.1
      refine bind_ok.2 ⟨acc ++ [v], (writeAdditional_iff (h1 v (by simp))).2 ⟨rfl, (c1 v (by simp)).1, ?_, (c1 v (by simp)).2⟩, ?_⟩
      · rw [List.map_append, List.nodup_append] at hn'
        exact fun hx => hn'.2.2 _ hx _ (by simp) rfl
      · exact (writeAdditional_fold_iff (fun w hw => h1 w (by simp [hw])) hn').2 ⟨by simp, fun w hw => c1 w (by simp [hw]), e⟩

/-- **C69**, additional variables. When the other arrays fit, a file is written exactly when every additional variable is over dimensions of the file with one value for each
element, and all names are new; the file then has these variables with these dimensions and data. (A variable of a single value is left out: it may also be spread over the dimensions.) -/
theorem C69_additional_variables [Zero α] (f : FileArrays α) (h : { f with additional := [] }.Fits) (h1 : ∀ v ∈ f.additional, v.2.data.length ≠ 1) :
    (∃ d, writeInputFile f = .ok d) ↔ (∀ v ∈ f.additional, v.1 ∉ writtenNames ∧ f.FitsVar v.2) ∧ (f.additional.map (·.1)).Nodup := by
  have key : writeInputFile f = (f.additional.foldlM (writeAdditional f.s1.X.nrows f.s1.X.ncols f.s2.X.ncols) []).bind fun vars => .ok { { f with additional := [] }.asDataset with vars := vars } := by
    have a1 := h.s1
    have a2 := h.s2
    have a3 := h.K
    have a4 := h.time
    dsimp only at a1 a2 a3 a4
    unfold writeInputFile
    simp only [bind, Except.bind, writeSide_ok a1, writeSide_ok a2, putList_ok a3.1, putList_ok a3.2.1, putList_ok a3.2.2, putList_ok a4.1, putList_ok a4.2]
    rfl
  rw [key]
  constructor
  · rintro ⟨d, hd⟩
    obtain ⟨vars, hv, _⟩ := bind_ok.1 hd
    obtain ⟨_, c1, c2⟩ := (writeAdditional_fold_iff h1 (by simp)).1 hv
    exact ⟨c1, by simpa using c2⟩
  · rintro ⟨c1, c2⟩
    exact ⟨_, bind_ok.2 ⟨f.additional, (writeAdditional_fold_iff h1 (by simp)).2 ⟨by simp, c1, by simpa using c2⟩, rfl⟩⟩

/-- **C69**: the additional variables of a file written are those given. -/
theorem C69_additional_written [Zero α] (f : FileArrays α) (h1 : ∀ v ∈ f.additional, v.2.data.length ≠ 1) (d : Dataset α) (h : writeInputFile f = .ok d) : d.vars = f.additional := by
  unfold writeInputFile at h
  obtain ⟨s1, e1, h⟩ := bind_ok.1 h
  obtain ⟨s2, e2, h⟩ := bind_ok.1 h
  obtain ⟨_, _, h⟩ := bind_ok.1 h
  obtain ⟨_, _, h⟩ := bind_ok.1 h
  obtain ⟨_, _, h⟩ := bind_ok.1 h
  obtain ⟨_, _, h⟩ := bind_ok.1 h
  obtain ⟨_, _, h⟩ := bind_ok.1 h
  obtain ⟨vars, hv, h⟩ := bind_ok.1 h
  have hm : ∀ {s : SideArrays α} {r : Side α}, writeSide f.s1.X.nrows s = .ok r → r.m = s.X.ncols := by
    intro s r e
    unfold writeSide at e
    obtain ⟨_, _, e⟩ := bind_ok.1 e
    obtain ⟨_, _, e⟩ := bind_ok.1 e
    obtain ⟨_, _, e⟩ := bind_ok.1 e
    obtain ⟨_, _, e⟩ := bind_ok.1 e
    cases e
    rfl
  rw [hm e1, hm e2] at hv
  obtain ⟨rfl, _⟩ := (writeAdditional_fold_iff h1 (by simp)).1 hv
  cases h
  rfl

namespace Fixture

/-- Two match-ups, two covariates of the first sensor and three of the second, and a variable over each pair of dimensions. -/
def wide (dims : List String) (data : List Int) : FileArrays Int where
  s1 := { name := "a", X := ⟨2, 2, fun _ _ => 1⟩, Ur := ⟨2, 2, fun _ _ => 1⟩, Us := ⟨2, 2, fun _ _ => 1⟩, utype := [1, 1], wUse := [], uUse := [] }
  s2 := { name := "b", X := ⟨2, 3, fun _ _ => 1⟩, Ur := ⟨2, 3, fun _ _ => 1⟩, Us := ⟨2, 3, fun _ _ => 1⟩, utype := [1, 1, 1], wUse := [], uUse := [] }
  K := [1, 2]
  Kr := [1, 2]
  Ks := [1, 2]
  time1 := [1, 2]
  time2 := [1, 2]
  additional := [("extra", ⟨dims, data⟩)]

example : (wide ["M", "m2"] [1, 2, 3, 4, 5, 6]).FitsVar ⟨["M", "m2"], [1, 2, 3, 4, 5, 6]⟩ := ⟨[2, 3], by simp [FileArrays.dimensions, wide], rfl⟩

example : { wide ["M", "m2"] [1, 2, 3, 4, 5, 6] with additional := [] }.Fits :=
  ⟨⟨rfl, ⟨rfl, rfl⟩, ⟨rfl, rfl⟩, rfl⟩, ⟨rfl, ⟨rfl, rfl⟩, ⟨rfl, rfl⟩, rfl⟩, ⟨rfl, rfl, rfl⟩, ⟨rfl, rfl⟩, by simp, by simp⟩

/-- The values of one sensor's dimension do not fit the other's. -/
example : ¬ (wide ["M", "m1"] [1, 2, 3, 4, 5, 6]).FitsVar ⟨["M", "m1"], [1, 2, 3, 4, 5, 6]⟩ := by
  rintro ⟨sizes, h, hl⟩
  cases h with
  | cons a h => cases h with
    | cons b h => cases h with
      | nil =>
        simp [FileArrays.dimensions, wide] at a b
        subst a; subst b
        simp at hl

end Fixture
end Verif
