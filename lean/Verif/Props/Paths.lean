import Verif.Model.Paths
/-
Property C11: which files are opened.
-/
set_option autoImplicit false
namespace Verif

/-- What the property expects for each argument: the `.nc` files of a directory in name order, the file itself, the listed files,
the `.nc` files of each listed directory; nothing for any other argument. -/
def ExpectedPaths (fs : FS) : PathArg → Option (List String) → Prop
  | .str p, r =>
    (fs.isDir p → ∃ l, r = some l ∧ l.Pairwise (· ≤ ·) ∧
      l.Perm (((fs.listDir p).filter fun n => n.toList.drop (n.toList.length - 3) = ['.', 'n', 'c']).map (pjoin p))) ∧
    (¬ fs.isDir p → fs.isFile p → r = some [p]) ∧
    (¬ fs.isDir p → ¬ fs.isFile p → r = none)
  | .list l, r =>
    ((∀ p ∈ l, fs.isFile p) → r = some l) ∧
    ((∃ p ∈ l, ¬ fs.isFile p) → (∀ p ∈ l, fs.isDir p) → ∃ out, r = some out ∧
      ∀ f, f ∈ out ↔ ∃ p ∈ l, ∃ n ∈ fs.listDir p, n.toList.drop (n.toList.length - 3) = ['.', 'n', 'c'] ∧ f = pjoin p n) ∧
    ((∃ p ∈ l, ¬ fs.isFile p) → (∃ p ∈ l, ¬ fs.isDir p) → r = none)

theorem resolve_dir (fs : FS) (p : String) (h : fs.isDir p = true) : ∃ l, resolvePaths fs (.str p) = some l ∧
    l.Pairwise (· ≤ ·) ∧
      l.Perm (((fs.listDir p).filter fun n => n.toList.drop (n.toList.length - 3) = ['.', 'n', 'c']).map (pjoin p)) := by
  refine ⟨_, by simp only [resolvePaths]; rw [if_pos h], ?_, ?_⟩
  · have := List.pairwise_mergeSort (le := fun a b : String => decide (a ≤ b))
      (fun a b c hab hbc => by simp only [decide_eq_true_eq] at *; exact le_trans hab hbc)
      (fun a b => by simp only [Bool.or_eq_true, decide_eq_true_eq]; exact le_total a b)
      (((fs.listDir p).filter isNc).map (pjoin p))
    simpa using this
  · refine (List.mergeSort_perm _ _).trans ?_
    unfold isNc
    exact List.Perm.refl _

/-- **C11 (partial).** For every file system and every argument the opened files are the expected ones, provided that when the argument is
a list of directories these contain only `.nc` files.  Missing: in that last case the code neither filters nor sorts. -/
theorem C11_paths_partial (fs : FS) (arg : PathArg)
    (hdirs : ∀ l, arg = .list l → ∀ p ∈ l, ∀ n ∈ fs.listDir p, n.toList.drop (n.toList.length - 3) = ['.', 'n', 'c']) :
    ExpectedPaths fs arg (resolvePaths fs arg) := by
  cases arg with
  | str p =>
    refine ⟨fun h => resolve_dir fs p h, fun h1 h2 => ?_, fun h1 h2 => ?_⟩
    · simp only [Bool.not_eq_true] at h1
      simp [resolvePaths, h1, h2]
    · simp only [Bool.not_eq_true] at h1 h2
      simp [resolvePaths, h1, h2]
  | list l =>
    have hd := hdirs l rfl
    refine ⟨fun h => ?_, fun h1 h2 => ?_, fun h1 h2 => ?_⟩
    · simp only [resolvePaths]; rw [if_pos (by simpa using h)]
    · simp only [resolvePaths]
      rw [if_neg (by simpa using h1), if_pos (by simpa using h2)]
      refine ⟨_, rfl, fun f => ?_⟩
      simp only [List.mem_flatMap, List.mem_map]
      constructor
      · rintro ⟨p, hp, n, hn, rfl⟩
        exact ⟨p, hp, n, hn, hd p hp n hn, rfl⟩
      · rintro ⟨p, hp, n, hn, _, rfl⟩
        exact ⟨p, hp, n, hn, rfl⟩
    · simp only [resolvePaths]
      rw [if_neg (by simpa using h1), if_neg (by simpa using h2)]

/-- A directory with one match-up file and one other file. -/
def Fixture.fs : FS where
  isDir := fun p => p == "d"
  isFile := fun p => p == "d/a.nc" || p == "d/readme.txt"
  listDir := fun _ => ["readme.txt", "a.nc"]

example : resolvePaths Fixture.fs (.str "d") = some ["d/a.nc"] := by
  have h1 : isNc "readme.txt" = false := by decide
  have h2 : isNc "a.nc" = true := by decide
  have h3 : pjoin "d" "a.nc" = "d/a.nc" := by decide
  simp [resolvePaths, Fixture.fs, h1, h2, h3]

/-- **C11 is false of the code:** a list of directories opens every entry of each directory, also those that are not match-up files. -/
theorem C11_directory_list_not_filtered :
    ¬ ∀ (fs : FS) (arg : PathArg), ExpectedPaths fs arg (resolvePaths fs arg) := by
  intro h
  have h1 := (h Fixture.fs (.list ["d"])).2.1 ⟨"d", by simp, by decide⟩ (by decide)
  obtain ⟨out, ho, hf⟩ := h1
  have ho' : out = ["d/readme.txt", "d/a.nc"] := by
    have : resolvePaths Fixture.fs (.list ["d"]) = some ["d/readme.txt", "d/a.nc"] := by decide
    rw [this] at ho; exact (Option.some.inj ho).symm
  obtain ⟨p, hp, n, hn, hnc, he⟩ := (hf "d/readme.txt").1 (by simp [ho'])
  simp only [List.mem_singleton] at hp
  subst hp
  simp only [Fixture.fs, List.mem_cons, List.not_mem_nil, or_false] at hn
  rcases hn with rfl | rfl
  · revert hnc; decide
  · revert he; decide

end Verif
