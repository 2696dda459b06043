import Verif.Props.Rotation
/-
MINRES with two operators which have the same matrix on spans with the same scalar products.
-/
set_option autoImplicit false
namespace Verif
open Matrix
variable {α : Type} [Field α] [LinearOrder α] {k n n' : Nat}

/-- Two computations with results which are the images of one. -/
def Common {β γ γ' : Type} (F : β → γ) (F' : β → γ') (x : Py γ) (x' : Py γ') : Prop := ∃ r : Py β, x = r.map F ∧ x' = r.map F'

theorem Common.bind {β β₁ β₂ γ γ₁ γ₂ : Type} {F : β → β₁} {F' : β → β₂} {G : γ → γ₁} {G' : γ → γ₂} {x : Py β₁} {x' : Py β₂} (h : Common F F' x x') {g : β₁ → Py γ₁} {g' : β₂ → Py γ₂}
    (hg : ∀ a, Common G G' (g (F a)) (g' (F' a))) : Common G G' (x >>= g) (x' >>= g') := by
  obtain ⟨r, rfl, rfl⟩ := h
  cases r with
  | error e => exact ⟨.error e, rfl, rfl⟩
  | ok a => exact hg a

theorem Common.same {β γ γ₁ γ₂ : Type} {G : γ → γ₁} {G' : γ → γ₂} {x : Py β} {g : β → Py γ₁} {g' : β → Py γ₂} (hg : ∀ a, Common G G' (g a) (g' a)) : Common G G' (x >>= g) (x >>= g') := by
  cases x with
  | error e => exact ⟨.error e, rfl, rfl⟩
  | ok a => exact hg a

variable {L : (Fin k → α) →ₗ[α] (Fin n → α)} {L' : (Fin k → α) →ₗ[α] (Fin n' → α)} (hL : ∀ u v, L' u ⬝ᵥ L' v = L u ⬝ᵥ L v) {opts : MinresOpts α} {sqrt : α → Py α}
  {A : (Fin n → α) → Py (Fin n → α)} {A' : (Fin n' → α) → Py (Fin n' → α)} {K : (Fin k → α) → Fin k → α} (hA : ∀ u, A (L u) = .ok (L (K u))) (hA' : ∀ u, A' (L' u) = .ok (L' (K u)))
include hL hA hA'

theorem lanczos_common (st : MinresState α k) : Common (fun l : LanczosStep α k => ({ v := L l.v, alfa := l.alfa, y := L l.y } : LanczosStep α n))
    (fun l : LanczosStep α k => ({ v := L' l.v, alfa := l.alfa, y := L' l.y } : LanczosStep α n')) ((st.rotate L).lanczos opts A) ((st.rotate L').lanczos opts A') := by
  unfold MinresState.lanczos
  refine Common.same fun s => ?_
  dsimp only
  rw [show s • (st.rotate L).y = L (s • st.y) from (map_smul L s st.y).symm, show s • (st.rotate L').y = L' (s • st.y) from (map_smul L' s st.y).symm]
  refine Common.bind (F := L) (F' := L') ⟨.ok (K (s • st.y)), hA _, hA' _⟩ fun y => ?_
  refine Common.bind (F := L) (F' := L') ?_ fun y => ?_
  · unfold MinresState.orthogonalise
    show Common L L' (if 2 ≤ st.itn + 1 then _ else _) (if 2 ≤ st.itn + 1 then _ else _)
    split
    · refine Common.same fun q => ?_
      refine ⟨.ok (y - opts.shift • (s • st.y) - q • st.r1), ?_, ?_⟩ <;>
      · show Except.ok _ = Except.ok _
        simp only [MinresState.rotate, map_sub, map_smul]
    · refine ⟨.ok (y - opts.shift • (s • st.y)), ?_, ?_⟩ <;>
      · show Except.ok _ = Except.ok _
        simp only [map_sub, map_smul]
  · rw [hL]
    refine Common.same fun q => ?_
    refine ⟨.ok { v := s • st.y, alfa := L (s • st.y) ⬝ᵥ L y, y := q • st.r2 + y }, ?_, ?_⟩ <;>
    · show Except.ok _ = Except.ok _
      simp only [MinresState.rotate, map_add, map_smul]

theorem turn_common {beta1 : α} (st : MinresState α k) : Common (fun r : MinresState α k × Bool => (r.1.rotate L, r.2)) (fun r : MinresState α k × Bool => (r.1.rotate L', r.2))
    ((st.rotate L).turn opts sqrt A beta1) ((st.rotate L').turn opts sqrt A' beta1) := by
  unfold MinresState.turn
  refine Common.bind (lanczos_common hL hA hA' st) fun l => ?_
  dsimp only
  rw [hL]
  split
  · exact ⟨.ok ({ st with istop := 6, itn := st.itn + 1, y := l.y, r1 := st.r2, r2 := l.y, oldb := st.beta, beta := L l.y ⬝ᵥ L l.y }, true), rfl, rfl⟩
  · refine Common.same fun beta => ?_
    exact Common.bind (F := MinresState.rotate L) (F' := MinresState.rotate L') ⟨_, advance_rotate st l, advance_rotate st l⟩ fun st => ⟨.ok (st, _), rfl, rfl⟩

theorem loop_common {beta1 : α} : ∀ (j : Nat) (st : MinresState α k), Common (MinresState.rotate L) (MinresState.rotate L') (Minres.loop opts sqrt A beta1 j (st.rotate L))
    (Minres.loop opts sqrt A' beta1 j (st.rotate L'))
  | 0, st => ⟨.ok st, rfl, rfl⟩
  | j + 1, st => by
    unfold Minres.loop
    show Common _ _ (if st.itn < opts.itnlim then _ else _) (if st.itn < opts.itnlim then _ else _)
    split
    · refine Common.bind (turn_common hL hA hA' st) fun r => ?_
      dsimp only
      split
      · exact ⟨.ok r.1, rfl, rfl⟩
      · exact loop_common j r.1
    · exact ⟨.ok st, rfl, rfl⟩

/-- Two solves. -/
theorem solve_common {probes : List (Fin n → α)} {probes' : List (Fin n' → α)} (hs : Minres.symmetric opts A' probes' = Minres.symmetric opts A probes) (b : Fin k → α) :
    Common (MinresState.rotate L) (MinresState.rotate L') (Minres.solve opts sqrt A probes (L b)) (Minres.solve opts sqrt A' probes' (L' b)) := by
  unfold Minres.solve
  dsimp only
  rw [hL, hs]
  refine Common.same fun beta1 => ?_
  refine Common.same fun sym => ?_
  have hs : ∀ i, Minres.start opts (L b) i beta1 = (Minres.start opts b i beta1).rotate L := by
    intro i
    simp only [Minres.start, MinresState.rotate, map_zero]
  have hs' : ∀ i, Minres.start opts (L' b) i beta1 = (Minres.start opts b i beta1).rotate L' := by
    intro i
    simp only [Minres.start, MinresState.rotate, map_zero]
  rw [hs, hs']
  split
  · exact loop_common hL hA hA' _ _
  · exact ⟨.ok _, rfl, rfl⟩

end Verif
