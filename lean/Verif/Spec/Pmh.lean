import Verif.Model.Pmh
import Verif.Spec.Checker
import Verif.Lemmas.GNVec
/-
What the files made from the text files of a simulation hold.
-/
set_option autoImplicit false
namespace Verif
variable {α : Type} [Field α] [LinearOrder α]

/-- Input the tool is meant for: `n` match-ups for each pair of sensors, `H` with enough rows and columns (the covariates of both sensors, and K), effects of known types with
all parts given, and one moving average: all effects of type 3 have the kernel length `k` and the uncertainty `u0`. -/
structure PmhUncs.Usable (u : PmhUncs α) (H : Arr α) (pairs : List (String × String)) (n k : Nat) (u0 : α) : Prop where
  rows : pairs.length * n ≤ H.nrows ∧ 2 ≤ H.nrows
  cols : 2 * u.uR.length + 1 ≤ H.ncols
  some : pairs ≠ [] ∧ 0 < n ∧ 0 < k
  lengths : u.uS.length = u.uR.length ∧ u.nW.length = u.uR.length ∧ u.utype.length = u.uR.length
  types : ∀ t ∈ u.utype, t = 1 ∨ t = 2 ∨ t = 3
  average : 3 ∈ u.utype
  kernel : ∀ (c : Nat), u.utype[c]? = Option.some 3 → u.nW[c]? = Option.some k ∧ u.uR[c]? = Option.some u0

/-- Column `c` of side `s` is a moving average of `k` values, each with uncertainty `x`: match-up `i` averages the values `i, …, i+k-1`. -/
def Dataset.MovingAverage (d : Dataset α) (s : Side α) (c k : Nat) (x : α) : Prop :=
  ∃ W, openW d (s.wUse c) = .ok W ∧ openU d (s.uUse c) = .ok (List.replicate (d.M + k - 1) x) ∧ W.Shape ∧ W.nrows = d.M ∧ W.ncols = d.M + k - 1 ∧
    ∀ i q, i < d.M → q < d.M + k - 1 → W.dense i q = if i ≤ q ∧ q < i + k then 1 / (k : α) else 0

/-- A sensor that is not the reference; its covariates are columns `c0, …` of `H`. -/
structure Dataset.PmhSensor (d : Dataset α) (s : Side α) (H : Arr α) (u : PmhUncs α) (lo c0 k : Nat) : Prop where
  m : s.m = u.uR.length
  X : ∀ i c, i < d.M → c < s.m → s.X i c = H.val (lo + i) (c0 + c)
  types : ∀ (c t : Nat), u.utype[c]? = some t → s.utype c = t
  random : ∀ (c t : Nat) (x : α), u.utype[c]? = some t → t = 1 ∨ t = 2 → u.uR[c]? = some x → ∀ i, i < d.M → s.Ur i c = x
  systematic : ∀ (c : Nat) (x : α), u.utype[c]? = some 2 → u.uS[c]? = some x → ∀ i, i < d.M → s.Us i c = x
  average : ∀ (c : Nat) (x : α), u.utype[c]? = some 3 → u.uR[c]? = some x → d.MovingAverage s c k x

/-- The reference. -/
structure Dataset.PmhReference (d : Dataset α) (s : Side α) (H : Arr α) (u : PmhUncs α) (lo : Nat) : Prop where
  m : s.m = 1
  X : ∀ i, i < d.M → s.X i 0 = H.val (lo + i) 0
  types : s.utype 0 = 1
  random : ∀ i, i < d.M → s.Ur i 0 = u.ref

/-- The file of a pair of sensors, with the `n` match-ups starting at row `lo`. -/
structure Dataset.PmhFile (d : Dataset α) (H : Arr α) (u : PmhUncs α) (pair : String × String) (lo n k : Nat) : Prop where
  M : d.M = n
  names : d.s1.name = pair.1 ∧ d.s2.name = pair.2
  K : ∀ i, i < n → d.K i = H.val (lo + i) (H.ncols - 1) ∧ d.Kr i = u.Kr ∧ d.Ks i = 0
  time : ∀ i, i < n → d.time1 i = ((lo + i : Nat) : α) ∧ d.time2 i = ((lo + i : Nat) : α)
  s1 : if pair.1 = "0" then d.PmhReference d.s1 H u lo else d.PmhSensor d.s1 H u lo 0 k
  s2 : d.PmhSensor d.s2 H u lo u.uR.length k
  readable : ∀ s, s = d.s1 ∨ s = d.s2 → ∀ c, c < s.m → d.ReadableColumn s c
  optional : d.vars = []

/-- One effect of the file of uncertainties: its kind and its numbers as text. -/
inductive PmhEffect where
  | random (u : String)
  | systematic (u s : String)
  | average (u n : String)

/-- The two lines of an effect; the third word of the first is the kind with one more character. -/
def PmhEffect.lines (e : PmhEffect) (a b : String) (c : Char) (rest : List String) : List (List String) :=
  match e with
  | .random u => [a :: b :: String.ofList ['R', c] :: rest, [u]]
  | .systematic u s => [a :: b :: String.ofList ['R', 'S', c] :: rest, [u, s]]
  | .average u n => [a :: b :: String.ofList ['M', 'A', c] :: rest, [u, n]]

/-- The numbers the text of an effect stands for. -/
inductive PmhEffect.Is {β : Type} [Zero β] (parse : String → Py β) (parseInt : String → Py Nat) : PmhEffect → β → β → Nat → Nat → Prop
  | random {u : String} {x : β} : parse u = .ok x → PmhEffect.Is parse parseInt (.random u) x 0 0 1
  | systematic {u s : String} {x y : β} : parse u = .ok x → parse s = .ok y → PmhEffect.Is parse parseInt (.systematic u s) x y 0 2
  | average {u n : String} {x : β} {k : Nat} : parse u = .ok x → parseInt n = .ok k → PmhEffect.Is parse parseInt (.average u n) x 0 k 3

end Verif
