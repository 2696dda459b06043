import Verif.Spec.Layout
import Verif.Props.ReaderUnc
/-
Opened match-ups are well laid out.
-/
set_option autoImplicit false
namespace Verif
variable {α δ : Type} [Zero α] [DecidableEq α]

/-- Every match-up opened from consistent files, each with at least one data column, is well laid out. -/
theorem opened_wellLaid (env : ReadEnv α δ) (ds : List (Dataset α)) (hc : ConsistentFiles ds)
    (hcol : ∀ d ∈ ds, 1 ≤ d.s1.m ∨ 1 ≤ d.s2.m) (mu : MatchUp α δ) (h : openMatchUp env ds = .ok mu) : mu.WF := by
  obtain ⟨x, mx, hx, hf⟩ := getIdx_facts (openMatchUp_nonempty h)
  obtain ⟨x', hx', hv, hk, _, _, _, _, _, _, _, huk, _, hidx, _⟩ := openMatchUp_inv h
  rw [hx] at hx'; cases hx'
  have hn : ∀ n ∈ x.n_mu, 1 ≤ n ∧ n ≤ ds.length := by
    intro n hn
    rw [hf.n_mu] at hn
    obtain ⟨⟨s, i, c⟩, hb, rfl⟩ := List.mem_map.1 hn
    rw [← hf.blocks] at hb
    obtain ⟨h1, _, d, s, hd, _⟩ := (hf.mem_blocks hc).1 hb
    have := (List.getElem?_eq_some_iff.1 hd).1
    simp only; omega
  have hxwf : x.WF := by
    refine ⟨hf.idx, by rw [hf.cNm, hf.Nm], by rw [hf.N_var]; simp, ?_, ?_⟩
    · intro b n hb
      have hmem := hn n (List.mem_of_getElem? hb)
      refine ⟨hmem.1, ?_⟩
      have hlt : n - 1 < ds.length := by omega
      refine ⟨(ds[n-1]).M, by rw [hf.Nm]; simp [hlt], ?_⟩
      rw [hf.N_var, List.getElem?_map, hb]
      simp [hlt]
    · intro n h1 h2
      rw [hf.Nm, List.length_map] at h2
      have hlt : n - 1 < ds.length := by omega
      rw [hf.n_mu, ← hf.blocks]
      rcases hcol _ (List.getElem_mem hlt) with hm | hm
      · exact List.mem_map.2 ⟨(_, n, 1), (hf.mem_blocks hc).2 ⟨h1, Nat.le_refl _, _, _, List.getElem?_eq_getElem hlt, .inl rfl, rfl, hm⟩, rfl⟩
      · exact List.mem_map.2 ⟨(_, n, 1), (hf.mem_blocks hc).2 ⟨h1, Nat.le_refl _, _, _, List.getElem?_eq_getElem hlt, .inr rfl, rfl, hm⟩, rfl⟩
  refine ⟨?_, ?_, ?_, ?_, ?_⟩
  · rw [hidx]; exact ⟨hxwf.1, hxwf.2, hxwf.3, hxwf.4, hxwf.5⟩
  · obtain ⟨out, ho, hol, _⟩ := openValues_spec hf hc
    rw [hv] at ho; cases ho
    rw [hidx]; exact hol
  · have := (C08_systematic_numbering env ds hc mu h).1
    rw [this, hidx]
    simp only [hf.n_sensor, hf.n_mu, List.length_map]
  · have := (C05_series_data env ds mu h).1
    rw [this, hidx]; simp only [hf.Nm]
  · rw [huk, hidx]
    simp only [hf.Nm, openUncK, List.map_map, Function.comp_def, vector_length]

end Verif
