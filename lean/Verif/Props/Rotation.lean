import Verif.Spec.Rotation
import Mathlib.Data.Rat.Lemmas
import Mathlib.LinearAlgebra.Pi
/-
Property C97: the linear solvers do not depend on the numbering of the equations and unknowns, nor on the choice of orthogonal axes.
-/
set_option autoImplicit false
namespace Verif
open Matrix
variable {α : Type} [Field α] [LinearOrder α] {m n m' n' : Nat}

theorem bind_rot {β β' γ γ' : Type} {F : β → β'} {G : γ → γ'} {x : Py β} {x' : Py β'} (hx : x' = x.map F) {g : β → Py γ} {g' : β' → Py γ'} (hg : ∀ a, g' (F a) = (g a).map G) :
    (x' >>= g') = (x >>= g).map G := by
  subst hx
  cases x with
  | error e => rfl
  | ok a => exact hg a

theorem bind_same {β γ γ' : Type} {G : γ → γ'} {x : Py β} {g : β → Py γ} {g' : β → Py γ'} (hg : ∀ a, g' a = (g a).map G) : (x >>= g') = (x >>= g).map G := by
  cases x with
  | error e => rfl
  | ok a => exact hg a

section
variable {f : (Fin n → α) →ₗ[α] (Fin n' → α)} (hf : IsRotation f) {opts : MinresOpts α} {sqrt : α → Py α} {A : (Fin n → α) → Py (Fin n → α)} {A' : (Fin n' → α) → Py (Fin n' → α)}
  (hA : ∀ v, A' (f v) = (A v).map f)
include hf hA

theorem checkSymmetric_rotate (probes : List (Fin n → α)) : checkSymmetric opts A' (probes.map f) = checkSymmetric opts A probes := by
  induction probes with
  | nil => rfl
  | cons x probes ih =>
    simp only [List.map_cons, checkSymmetric]
    rw [hA]
    cases hw : A x with
    | error e => rfl
    | ok w =>
      show (A' (f w) >>= _) = (A w >>= _)
      rw [hA]
      cases hr : A w with
      | error e => rfl
      | ok r =>
        show (if _ then _ else _) = (if _ then _ else _)
        rw [hf, hf, ih]

theorem lanczos_rotate (st : MinresState α n) : (st.rotate f).lanczos opts A' = (st.lanczos opts A).map fun l => { v := f l.v, alfa := l.alfa, y := f l.y } := by
  unfold MinresState.lanczos
  refine bind_same fun s => ?_
  dsimp only
  rw [show s • (st.rotate f).y = f (s • st.y) from (map_smul f s st.y).symm]
  refine bind_rot (hA _) fun y => ?_
  refine bind_rot (F := f) ?_ fun y => ?_
  · unfold MinresState.orthogonalise
    show (if 2 ≤ st.itn + 1 then _ else _) = _
    split
    · refine bind_same fun q => ?_
      show Except.ok _ = Except.ok _
      simp only [MinresState.rotate, map_sub, map_smul]
    · show Except.ok _ = Except.ok _
      simp only [map_sub, map_smul]
  · rw [hf]
    refine bind_same fun q => ?_
    show Except.ok _ = Except.ok _
    simp only [MinresState.rotate, map_add, map_smul]

omit hf hA in
theorem advance_rotate {beta1 beta : α} (st : MinresState α n) (l : LanczosStep α n) :
    (st.rotate f).advance opts sqrt beta1 { v := f l.v, alfa := l.alfa, y := f l.y } beta = (st.advance opts sqrt beta1 l beta).map (MinresState.rotate f) := by
  unfold MinresState.advance
  dsimp only
  iterate 7 refine bind_same fun _ => ?_
  refine congrArg Except.ok ?_
  simp only [MinresState.rotate, map_add, map_smul, map_sub]
  rfl

theorem turn_rotate {beta1 : α} (st : MinresState α n) : (st.rotate f).turn opts sqrt A' beta1 = (st.turn opts sqrt A beta1).map fun r => (r.1.rotate f, r.2) := by
  unfold MinresState.turn
  refine bind_rot (lanczos_rotate hf hA st) fun l => ?_
  dsimp only
  rw [hf]
  split
  · rfl
  · refine bind_same fun beta => ?_
    refine bind_rot (advance_rotate st l) fun st => ?_
    rfl

theorem loop_rotate {beta1 : α} : ∀ (k : Nat) (st : MinresState α n), Minres.loop opts sqrt A' beta1 k (st.rotate f) = (Minres.loop opts sqrt A beta1 k st).map (MinresState.rotate f)
  | 0, st => rfl
  | k + 1, st => by
    unfold Minres.loop
    show (if st.itn < opts.itnlim then _ else _) = _
    split
    · refine bind_rot (turn_rotate hf hA st) fun r => ?_
      dsimp only
      split
      · rfl
      · exact loop_rotate k r.1
    · rfl

/-- **C97, MINRES.** Solving equations in other orthogonal coordinates (with the corresponding vectors in the symmetry test) gives the same result in these coordinates: the same number
of iterations, stopping code, norms and solution - or fails in the same way. -/
theorem C97_minres (probes : List (Fin n → α)) (b : Fin n → α) :
    Minres.solve opts sqrt A' (probes.map f) (f b) = (Minres.solve opts sqrt A probes b).map (MinresState.rotate f) := by
  unfold Minres.solve
  dsimp only
  rw [hf]
  refine bind_same fun beta1 => ?_
  have e : Minres.symmetric opts A' (probes.map f) = Minres.symmetric opts A probes := by
    unfold Minres.symmetric
    rw [checkSymmetric_rotate hf hA]
  rw [e]
  refine bind_same fun sym => ?_
  have hs : ∀ i, Minres.start opts (f b) i beta1 = (Minres.start opts b i beta1).rotate f := by
    intro i
    simp only [Minres.start, MinresState.rotate, map_zero]
  rw [hs]
  split
  · exact loop_rotate hf hA _ _
  · rfl
end

section
variable {e : (Fin m → α) →ₗ[α] (Fin m' → α)} {f : (Fin n → α) →ₗ[α] (Fin n' → α)} (he : IsRotation e) (hf : IsRotation f) {opts : LsmrOpts α} {sqrt : α → Py α}
  {A : (Fin n → α) → Py (Fin m → α)} {A' : (Fin n' → α) → Py (Fin m' → α)} {AH : (Fin m → α) → Py (Fin n → α)} {AH' : (Fin m' → α) → Py (Fin n' → α)}
  (hA : ∀ v, A' (f v) = (A v).map e) (hAH : ∀ u, AH' (e u) = (AH u).map f)

omit [LinearOrder α] in
theorem normalised_rotate [LinearOrder α] {k k' : Nat} (f : (Fin k → α) →ₗ[α] (Fin k' → α)) (c : α) (v : Fin k → α) : normalised c (f v) = f (normalised c v) := by
  unfold normalised
  split
  · rw [map_smul]
  · rfl

include he hf hAH in
theorem first_rotate (b : Fin m → α) : Lsmr.first sqrt AH' (e b) = (Lsmr.first sqrt AH b).map fun bi => { u := e bi.u, beta := bi.beta, v := f bi.v, alpha := bi.alpha } := by
  unfold Lsmr.first
  rw [he]
  refine bind_same fun beta => ?_
  split
  · dsimp only
    rw [normalised_rotate]
    refine bind_rot (hAH _) fun v => ?_
    rw [hf]
    refine bind_same fun alpha => ?_
    rw [normalised_rotate]
    rfl
  · show Except.ok _ = Except.ok _
    simp only [map_zero]

include he hf hA hAH in
theorem bidiag_rotate (st : LsmrState α m n) :
    (st.rotate e f).bidiag sqrt A' AH' = (st.bidiag sqrt A AH).map fun bi => { u := e bi.u, beta := bi.beta, v := f bi.v, alpha := bi.alpha } := by
  unfold LsmrState.bidiag
  refine bind_rot (hA _) fun Av => ?_
  dsimp only
  rw [show e Av - (st.rotate e f).alpha • (st.rotate e f).u = e (Av - st.alpha • st.u) by simp only [LsmrState.rotate, map_sub, map_smul], he]
  refine bind_same fun beta => ?_
  split
  · rw [normalised_rotate]
    refine bind_rot (hAH _) fun Au => ?_
    rw [show f Au - beta • (st.rotate e f).v = f (Au - beta • st.v) by simp only [LsmrState.rotate, map_sub, map_smul], hf]
    refine bind_same fun alpha => ?_
    rw [normalised_rotate]
    rfl
  · rfl

include he hf hA hAH in
theorem lsmrTurn_rotate {normb ctol : α} (st : LsmrState α m n) :
    (st.rotate e f).turn opts sqrt A' AH' normb ctol = (st.turn opts sqrt A AH normb ctol).map (LsmrState.rotate e f) := by
  unfold LsmrState.turn
  dsimp only
  refine bind_rot (bidiag_rotate he hf hA hAH st) fun bi => ?_
  dsimp only
  iterate 6 refine bind_same fun _ => ?_
  have hh : ∀ a b : α, (st.rotate e f).x + b • ((st.rotate e f).h - a • (st.rotate e f).hbar) = f (st.x + b • (st.h - a • st.hbar)) := by
    intro a b
    simp only [LsmrState.rotate, map_add, map_sub, map_smul]
  simp only [hh, hf (_ : Fin n → α) _]
  repeat refine bind_same fun _ => ?_
  refine congrArg Except.ok ?_
  simp only [LsmrState.rotate, map_sub, map_smul]
  rfl

include he hf hA hAH in
theorem lsmrLoop_rotate {normb ctol : α} : ∀ (k : Nat) (st : LsmrState α m n),
    Lsmr.loop opts sqrt A' AH' normb ctol k (st.rotate e f) = (Lsmr.loop opts sqrt A AH normb ctol k st).map (LsmrState.rotate e f)
  | 0, st => rfl
  | k + 1, st => by
    unfold Lsmr.loop
    show (if st.itn < opts.itnlim then _ else _) = _
    split
    · refine bind_rot (lsmrTurn_rotate he hf hA hAH st) fun r => ?_
      show (if 0 < r.istop then _ else _) = _
      split
      · rfl
      · exact lsmrLoop_rotate k r
    · rfl

include he hf hA hAH in
/-- **C97, LSMR.** Solving equations with the equations and the unknowns in other orthogonal coordinates gives the same result in these coordinates: the same number of iterations,
stopping code, norms and solution, and leaves the object with the same vector - or fails in the same way. -/
theorem C97_lsmr (b : Fin m → α) (held : Option (Fin n → α)) :
    Lsmr.solve opts sqrt A' AH' (e b) (held.map f) = (Lsmr.solve opts sqrt A AH b held).map fun r => (r.1.rotate e f, r.2.map f) := by
  unfold Lsmr.solve
  refine bind_rot (first_rotate he hf hAH b) fun bi => ?_
  dsimp only
  refine bind_same fun normA => ?_
  have hs : Lsmr.start opts ({ u := e bi.u, beta := bi.beta, v := f bi.v, alpha := bi.alpha } : Bidiag α m' n') normA = (Lsmr.start opts bi normA).rotate e f := by
    simp only [Lsmr.start, LsmrState.rotate, map_zero]
  rw [hs]
  show (if (Lsmr.start opts bi normA).normar = 0 then _ else _) = _
  split
  · rfl
  · exact bind_rot (lsmrLoop_rotate he hf hA hAH _ _) fun st => rfl

end

section
/-- A renumbering preserves lengths and angles. -/
theorem renumber_rotation (p : Equiv.Perm (Fin n)) : IsRotation (LinearMap.funLeft α α p : (Fin n → α) →ₗ[α] (Fin n → α)) := by
  intro u v
  simp only [dotProduct, LinearMap.funLeft_apply]
  exact Equiv.sum_comp p fun i => u i * v i

theorem submatrix_mulVec_comp (M : Matrix (Fin m) (Fin n) α) (q : Equiv.Perm (Fin m)) (p : Equiv.Perm (Fin n)) (v : Fin n → α) : M.submatrix q p *ᵥ (v ∘ p) = (M *ᵥ v) ∘ q := by
  funext i
  simp only [Matrix.mulVec, dotProduct, Matrix.submatrix_apply, Function.comp]
  exact Equiv.sum_comp p fun j => M (q i) j * v j

/-- **C97, numbering, MINRES.** If the parameters are listed in another order - the rows and columns of the matrix, the right hand side and the vectors of the symmetry test alike -
then MINRES gives the same solution in that order, with the same number of iterations, stopping code and norms. -/
theorem C97_minres_order (opts : MinresOpts α) (sqrt : α → Py α) (M : Matrix (Fin n) (Fin n) α) (p : Equiv.Perm (Fin n)) (probes : List (Fin n → α)) (b : Fin n → α)
    (st : MinresState α n) (h : Minres.solve opts sqrt (fun v => .ok (M *ᵥ v)) probes b = .ok st) :
    ∃ st', Minres.solve opts sqrt (fun v => .ok (M.submatrix p p *ᵥ v)) (probes.map (· ∘ p)) (b ∘ p) = .ok st' ∧ st'.x = st.x ∘ p ∧ st'.itn = st.itn ∧ st'.istop = st.istop ∧
      st'.rnorm = st.rnorm ∧ st'.Arnorm = st.Arnorm ∧ st'.ynorm = st.ynorm := by
  have k := C97_minres (renumber_rotation (α := α) p) (opts := opts) (sqrt := sqrt) (A := fun v => .ok (M *ᵥ v)) (A' := fun v => .ok (M.submatrix p p *ᵥ v))
    (fun v => congrArg Except.ok (submatrix_mulVec_comp M p p v)) probes b
  rw [h] at k
  exact ⟨_, k, rfl, rfl, rfl, rfl, rfl, rfl⟩

/-- **C97, numbering, LSMR.** If the equations and the unknowns are listed in other orders, LSMR gives the same solution in that order, with the same number of iterations, stopping code
and norms. -/
theorem C97_lsmr_order (opts : LsmrOpts α) (sqrt : α → Py α) (M : Matrix (Fin m) (Fin n) α) (q : Equiv.Perm (Fin m)) (p : Equiv.Perm (Fin n)) (b : Fin m → α)
    (held : Option (Fin n → α)) (st : LsmrState α m n) (x : Option (Fin n → α)) (h : Lsmr.solve opts sqrt (fun v => .ok (M *ᵥ v)) (fun u => .ok (Mᵀ *ᵥ u)) b held = .ok (st, x)) :
    ∃ st', Lsmr.solve opts sqrt (fun v => .ok (M.submatrix q p *ᵥ v)) (fun u => .ok ((M.submatrix q p)ᵀ *ᵥ u)) (b ∘ q) (held.map (· ∘ p)) = .ok (st', x.map (· ∘ p)) ∧
      st'.x = st.x ∘ p ∧ st'.itn = st.itn ∧ st'.istop = st.istop ∧ st'.normr = st.normr ∧ st'.normar = st.normar ∧ st'.normx = st.normx := by
  have k := C97_lsmr (renumber_rotation (α := α) q) (renumber_rotation (α := α) p) (opts := opts) (sqrt := sqrt) (A := fun v => .ok (M *ᵥ v))
    (A' := fun v => .ok (M.submatrix q p *ᵥ v)) (AH := fun u => .ok (Mᵀ *ᵥ u)) (AH' := fun u => .ok ((M.submatrix q p)ᵀ *ᵥ u))
    (fun v => congrArg Except.ok (submatrix_mulVec_comp M q p v)) (fun u => congrArg Except.ok (submatrix_mulVec_comp Mᵀ p q u)) b held
  rw [h] at k
  exact ⟨_, k, rfl, rfl, rfl, rfl, rfl, rfl⟩
end

end Verif
