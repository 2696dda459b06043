import Verif.Model.Result
/-
Vocabulary for the harmonisation result files.
-/
set_option autoImplicit false
namespace Verif

/-- A name that does not begin or end with a blank. -/
def NoEdgeBlanks (s : String) : Prop :=
  (∀ c, s.toList.head? = some c → isBlank c = false) ∧ (∀ c, s.toList.getLast? = some c → isBlank c = false)

/-- The additional attributes have different names, other than those of the three statistics, and none that begins with an underscore. -/
def PlainAttrs {α : Type} (attrs : List (String × AttVal α)) : Prop :=
  (attrs.map (·.1)).Nodup ∧ ∀ a ∈ attrs, a.1 ∉ ["cost", "cost_dof", "cost_p_value"] ∧ a.1.toList.head? ≠ some '_'

/-- A variable read back holds the numbers written, or rows of characters which without surrounding blanks are the names written. -/
def SameVar {α : Type} (v : AddVar α) (w : OutVar α) : Prop :=
  match v, w with
  | .num d l, .num d' l' => d = d' ∧ l = l'
  | .names d l, .chars d' rows => d = d' ∧ l = rows.map fun r => String.ofList (strip r)
  | _, _ => False

/-- The names held by an additional variable. -/
def AddVar.nameList {α : Type} : AddVar α → List String
  | .num _ _ => []
  | .names _ l => l

/-- The additional variables fit together: those along one dimension have one length (the dimension `n` that of the parameters), no name is one of the three
standard ones, and lists of names are not empty and fit the 80 characters. -/
def VarsFit {α : Type} (n : Nat) (vars : List (String × AddVar α)) : Prop :=
  ∃ size : Char → Nat, size 'n' = n ∧ ∀ v ∈ vars, v.1 ∉ ["parameter", "parameter_covariance_matrix", "parameter_sensors"] ∧
    match v.2 with
    | .num d l => l.length = size d
    | .names d l => l.length = size d ∧ l ≠ [] ∧ ∀ s ∈ l, s.toList.length ≤ 80

end Verif
namespace Verif

/-- An output file name as the package makes them: `harm`, any text on one line without the letters `res` in a row, `.nc`. -/
def OutputName (fname : List Char) : Prop :=
  ∃ t, fname = "harm".toList ++ t ++ ".nc".toList ∧ '\n' ∉ t ∧ ¬ ("res".toList <:+: t)

/-- The names of the two sensors of each match-up series. -/
def Idx.pairNames (x : Idx) : List (String × String) :=
  x.Im.map fun p => (x.sensors.getD p.1 "", x.sensors.getD p.2 "")

/-- The names of the files in a directory. -/
def Dir.names {α : Type} (d : Dir α) : List (List Char) := d.map (·.1)

end Verif
namespace Verif

/-- Residual files of one result: in each file the two sensors differ and there is one K residual per match-up; a sensor has the same number of covariates in all files. -/
def ConsistentRes {α : Type} (fs : List (ResFile α)) : Prop :=
  (∀ f ∈ fs, f.s1.name ≠ f.s2.name ∧ f.k.length = f.M) ∧
  ∀ f ∈ fs, ∀ g ∈ fs, ∀ s ∈ [f.s1, f.s2], ∀ t ∈ [g.s1, g.s2], s.name = t.name → s.X.map (·.1) = t.X.map (·.1)

end Verif
