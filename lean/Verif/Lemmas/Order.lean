import Verif.Lemmas.OrderFiles
import Verif.Props.ObjectiveRun
/-
Reordered files: the blocks are renumbered, and the objective of residuals is the same.
-/
set_option autoImplicit false
namespace Verif
open Finset (sum_congr)
variable {α δ : Type}

/-- A reordering as a map of positions. -/
theorem perm_index {β : Type} {l l' : List β} (h : l.Perm l') : ∃ σ : Nat → Nat, (∀ i, i < l'.length → σ i < l.length) ∧
    (∀ i j, i < l'.length → j < l'.length → σ i = σ j → i = j) ∧ ∀ i, i < l'.length → l'[i]? = l[σ i]? := by
  induction h with
  | nil => exact ⟨id, by simp, by simp, by simp⟩
  | @cons x l l' h ih =>
    obtain ⟨σ, h1, h2, h3⟩ := ih
    refine ⟨fun i => match i with | 0 => 0 | i + 1 => σ i + 1, ?_, ?_, ?_⟩
    · intro i hi
      rcases i with _ | i
      · simp
      · simp only [List.length_cons] at hi ⊢
        have := h1 i (by omega)
        omega
    · intro i j hi hj he
      rcases i with _ | i <;> rcases j with _ | j
      · rfl
      · simp at he
      · simp at he
      · simp only [List.length_cons] at hi hj
        have := h2 i j (by omega) (by omega) (by simpa using he)
        omega
    · intro i hi
      rcases i with _ | i
      · rfl
      · simp only [List.length_cons] at hi
        simpa using h3 i (by omega)
  | swap x y l =>
    refine ⟨fun i => match i with | 0 => 1 | 1 => 0 | i + 2 => i + 2, ?_, ?_, ?_⟩
    · intro i hi
      rcases i with _ | _ | i <;> simp at hi ⊢
      exact hi
    · intro i j hi hj he
      rcases i with _ | _ | i <;> rcases j with _ | _ | j <;> simp at he ⊢
      exact he
    · intro i hi
      rcases i with _ | _ | i <;> rfl
  | trans _ _ ih1 ih2 =>
    obtain ⟨σ, h1, h2, h3⟩ := ih1
    obtain ⟨τ, k1, k2, k3⟩ := ih2
    refine ⟨fun i => σ (τ i), fun i hi => h1 _ (k1 i hi), fun i j hi hj he => k2 i j hi hj (h2 _ _ (k1 i hi) (k1 j hj) he), fun i hi => ?_⟩
    rw [k3 i hi, h3 _ (k1 i hi)]

/-- A map of the first numbers into themselves which is one to one reaches all of them. -/
theorem range_onto {n : Nat} {σ : Nat → Nat} (h1 : ∀ i, i < n → σ i < n) (h2 : ∀ i j, i < n → j < n → σ i = σ j → i = j) : (Finset.range n).image σ = Finset.range n := by
  refine Finset.eq_of_subset_of_card_le ?_ ?_
  · intro j hj
    obtain ⟨i, hi, rfl⟩ := Finset.mem_image.1 hj
    exact Finset.mem_range.2 (h1 i (Finset.mem_range.1 hi))
  · rw [Finset.card_image_of_injOn]
    intro i hi j hj he
    exact h2 i j (by simpa using hi) (by simpa using hj) he

section
variable [Field α]

/-- The blocks of `mu'` are those of `mu` in another order, `β b'` being the number in `mu` of block `b'` of `mu'`. -/
structure Renumbered (mu mu' : MatchUp α δ) (β : Nat → Nat) : Prop where
  maps : ∀ b, b < mu'.numBlocks → β b < mu.numBlocks
  inj : ∀ b b', b < mu'.numBlocks → b' < mu'.numBlocks → β b = β b' → b = b'
  onto : ∀ b, b < mu.numBlocks → ∃ b', b' < mu'.numBlocks ∧ β b' = b
  len : ∀ b, b < mu'.numBlocks → mu'.blockLen b = mu.blockLen (β b)
  cov : ∀ b r b' r', b < mu'.numBlocks → b' < mu'.numBlocks → r < mu'.blockLen b → r' < mu'.blockLen b' → mu'.declaredCov b r b' r' = mu.declaredCov (β b) r (β b') r'

theorem positions_lt {mu : MatchUp α δ} {p : Σ _ : Nat, Nat} (h : p ∈ mu.positions) : p.1 < mu.numBlocks ∧ p.2 < mu.blockLen p.1 := by
  obtain ⟨h1, h2⟩ := mem_positions h
  exact ⟨(List.getElem?_eq_some_iff.1 h1).1, h2⟩

variable {mu mu' : MatchUp α δ} {β : Nat → Nat}

theorem Renumbered.sum (h : Renumbered mu mu' β) (F : Nat → Nat → α) : ∑ p ∈ mu'.positions, F (β p.1) p.2 = ∑ p ∈ mu.positions, F p.1 p.2 := by
  refine Finset.sum_nbij (fun p => (⟨β p.1, p.2⟩ : Σ _ : Nat, Nat)) ?_ ?_ ?_ (fun _ _ => rfl)
  · intro p hp
    obtain ⟨h1, h2⟩ := positions_lt hp
    exact positions_mem (h.maps _ h1) (by rw [← h.len _ h1]; exact h2)
  · rintro ⟨b, r⟩ hp ⟨b', r'⟩ hp' he
    obtain ⟨h1, _⟩ := positions_lt hp
    obtain ⟨h1', _⟩ := positions_lt hp'
    simp only [Sigma.mk.injEq, heq_eq_eq] at he
    obtain ⟨e1, e2⟩ := he
    have := h.inj b b' h1 h1' e1
    subst this e2
    rfl
  · rintro ⟨b, r⟩ hp
    obtain ⟨h1, h2⟩ := positions_lt hp
    obtain ⟨b', h3, rfl⟩ := h.onto b h1
    exact ⟨⟨b', r⟩, positions_mem h3 (by rw [h.len b' h3]; exact h2), rfl⟩

/-- The weighted sum of squares of residuals does not depend on the numbering. -/
theorem Renumbered.weightedSq (h : Renumbered mu mu' β) {d d' : List α} (hd : ∀ b r, b < mu'.numBlocks → r < mu'.blockLen b → mu'.elem d' b r = mu.elem d (β b) r) {q : α}
    (hq : mu.WeightedSq d q) : mu'.WeightedSq d' q := by
  obtain ⟨y, hy, rfl⟩ := hq
  refine ⟨fun b r => y (β b) r, fun b r hb hr => ?_, ?_⟩
  · rw [hd b r hb hr, ← hy (β b) r (h.maps b hb) (by rw [← h.len b hb]; exact hr), covMul_eq, covMul_eq, ← h.sum fun b' r' => mu.declaredCov (β b) r b' r' * y b' r']
    refine sum_congr rfl fun p hp => ?_
    obtain ⟨h1, h2⟩ := positions_lt hp
    rw [h.cov b r p.1 p.2 hb h1 hr h2]
  · rw [pairing_eq, pairing_eq, ← h.sum fun b r => y b r * mu.elem d b r]
    refine sum_congr rfl fun p hp => ?_
    obtain ⟨h1, h2⟩ := positions_lt hp
    rw [hd _ _ h1 h2]
end

section
variable [Field α] [DecidableEq α] {env : ReadEnv α δ} {ds ds' : List (Dataset α)} {mu mu' : MatchUp α δ}

theorem ConsistentFiles.perm (hp : ds.Perm ds') (hc : ConsistentFiles ds) : ConsistentFiles ds' :=
  ⟨fun d hd => hc.1 d (hp.mem_iff.2 hd), fun d hd e he => hc.2 d (hp.mem_iff.2 hd) e (hp.mem_iff.2 he)⟩

/-- The blocks of match-ups opened from reordered files. -/
theorem opened_renumbered (he : EnumOk env.enumNat) (hc : ConsistentFiles ds) (hc' : ConsistentFiles ds') (h : openMatchUp env ds = .ok mu) (h' : openMatchUp env ds' = .ok mu')
    {σ : Nat → Nat} (s0 : ds'.length = ds.length) (s1 : ∀ i, i < ds.length → σ i < ds.length) (s2 : ∀ i j, i < ds.length → j < ds.length → σ i = σ j → i = j)
    (s3 : ∀ i, i < ds.length → ds'[i]? = ds[σ i]?) :
    ∃ β, Renumbered mu mu' β ∧ ∀ b i d s c, mu'.BlockOf ds' b i d s c → mu.BlockOf ds (β b) (σ i) d s c := by
  have hlt : ∀ {i : Nat} {d : Dataset α}, ds'[i]? = some d → i < ds.length := fun hd => by rw [← s0]; exact (List.getElem?_eq_some_iff.1 hd).1
  have key : ∀ b, ∃ b0, b < mu'.numBlocks → ∃ i d s c, mu'.BlockOf ds' b i d s c ∧ mu.BlockOf ds b0 (σ i) d s c := by
    intro b
    by_cases hb : b < mu'.numBlocks
    · obtain ⟨i, d, s, c, hbo⟩ := blockOf_of hc' h' hb
      obtain ⟨b0, hb0⟩ := blockOf_exists hc h (i := σ i) (d := d) (s := s) (c := c) (by rw [← s3 i (hlt hbo.1)]; exact hbo.1) hbo.2.1 hbo.2.2.1
      exact ⟨b0, fun _ => ⟨i, d, s, c, hbo, hb0⟩⟩
    · exact ⟨0, fun hh => absurd hh hb⟩
  choose β hβ using key
  have hall : ∀ b i d s c, mu'.BlockOf ds' b i d s c → mu.BlockOf ds (β b) (σ i) d s c := by
    intro b i d s c hb
    obtain ⟨i', d', s', c', hb', hb0⟩ := hβ b (hb.lt h')
    obtain ⟨rfl, rfl, rfl, rfl⟩ := hb.unique hc' hb'
    exact hb0
  refine ⟨β, ⟨?_, ?_, ?_, ?_, ?_⟩, hall⟩
  · intro b hb
    obtain ⟨i, d, s, c, _, hb0⟩ := hβ b hb
    exact hb0.lt h
  · intro b b' hb hb' heq
    obtain ⟨i, d, s, c, hbo, hb0⟩ := hβ b hb
    obtain ⟨i', d', s', c', hbo', hb0'⟩ := hβ b' hb'
    rw [heq] at hb0
    obtain ⟨e1, rfl, rfl, rfl⟩ := hb0.unique hc hb0'
    have := s2 i i' (hlt hbo.1) (hlt hbo'.1) e1
    subst this
    exact hbo.inj hc' h' hbo' rfl
  · intro b hb
    obtain ⟨i, d, s, c, hbo⟩ := blockOf_of hc h hb
    have hi : i ∈ (Finset.range ds.length).image σ := by
      rw [range_onto s1 s2]
      exact Finset.mem_range.2 (List.getElem?_eq_some_iff.1 hbo.1).1
    obtain ⟨i', hi', rfl⟩ := Finset.mem_image.1 hi
    obtain ⟨b', hb'⟩ := blockOf_exists hc' h' (i := i') (d := d) (s := s) (c := c) (by rw [s3 i' (Finset.mem_range.1 hi')]; exact hbo.1) hbo.2.1 hbo.2.2.1
    exact ⟨b', hb'.lt h', (hall _ _ _ _ _ hb').inj hc h hbo rfl⟩
  · intro b hb
    obtain ⟨i, d, s, c, hbo, hb0⟩ := hβ b hb
    rw [hbo.len h', hb0.len h]
  · intro b r b' r' hb hb' hr hr'
    obtain ⟨i, d, s, c, hbo, hb0⟩ := hβ b hb
    obtain ⟨i', d', s', c', hbo', hb0'⟩ := hβ b' hb'
    rw [hbo.len h'] at hr
    rw [hbo'.len h'] at hr'
    rw [declaredCov_files he hc' h' hbo hbo' hr hr', declaredCov_files he hc h hb0 hb0' hr hr']
    unfold fileCov
    congr 1
    by_cases hii : i = i'
    · subst hii; simp
    · rw [if_neg fun hh => hii hh.1, if_neg fun hh => hii (s2 i i' (hlt hbo.1) (hlt hbo'.1) hh.1)]
end
end Verif
