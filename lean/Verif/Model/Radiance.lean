import Verif.Model.Py
import Mathlib.Analysis.SpecialFunctions.Log.Basic
import Mathlib.Analysis.SpecialFunctions.Exp
/-
Model of tools/convert_bt_to_radiance.py (class `convertBT`), in real arithmetic.  An array is given by its number of dimensions and its elements (flattened); an
element is `none` when it is not finite. `raise Exception, ..` is modelled by `runtimeError`.
-/
set_option autoImplicit false
namespace Verif

/-- The attributes `nuc`, `aval`, `bval` (L83-85): central wave numbers and band corrections of the three infrared channels (3.7, 11 and 12 micron). -/
structure BandCoefs where
  nuc : List ℚ
  aval : List ℚ
  bval : List ℚ
  deriving DecidableEq, Repr

/-- L10-79: the table. -/
def bandTable : List (String × List ℚ × List ℚ × List ℚ) :=
  [("m02", [268511/100, 926605/1000, 837805/1000], [199126/100000, 448099/1000000, 382986/1000000], [996287/1000000, 998631/1000000, 998879/1000000]),
   ("n19", [267851/100, 928179/1000, 832010/1000], [190192/100000, 406106/1000000, 391425/1000000], [999063/1000000, 998698/1000000, 998849/1000000]),
   ("n18", [267531/100, 928680/1000, 834073/1000], [210086/100000, 348003/1000000, 408531/1000000], [100006/100000, 998861/1000000, 998805/1000000]),
   ("n17", [267819/100, 927486/1000, 840187/1000], [193286/100000, 431676/1000000, 370802/1000000], [999144/1000000, 998637/1000000, 998917/1000000]),
   ("n16", [268843/100, 919600/1000, 836710/1000], [185548/100000, 693914/1000000, 440396/1000000], [995179/1000000, 998170/1000000, 998707/1000000]),
   ("n15", [268715/100, 926258/1000, 840231/1000], [140674/100000, 451169/1000000, 365465/1000000], [996299/1000000, 998636/1000000, 998931/1000000]),
   ("n14", [267439/100, 930521/1000, 835544/1000], [239486/100000, 621590/1000000, 419563/1000000], [100004/100000, 998294/1000000, 998769/1000000]),
   ("n12", [267181/100, 921925/1000, 838003/1000], [242853/100000, 560212/1000000, 398581/1000000], [100102/100000, 998415/1000000, 998832/1000000]),
   ("n11", [268285/100, 928047/1000, 842869/1000], [168218/100000, 393074/1000000, 406868/1000000], [997630/1000000, 998759/1000000, 998803/1000000]),
   ("n10", [267911/100, 910515/1000, -1], [193677/100000, 457244/1000000, -1], [998787/1000000, 998768/1000000, -1]),
   ("n09", [268584/100, 929574/1000, 846292/1000], [174231/100000, 347473/1000000, 493176/1000000], [996351/1000000, 998839/1000000, 998698/1000000]),
   ("n08", [267112/100, 915281/1000, -1], [231640/100000, 497544/1000000, -1], [100146/100000, 998654/1000000, -1]),
   ("n07", [268318/100, 927508/1000, 841403/1000], [173290/100000, 405709/1000000, 392737/1000000], [997424/1000000, 998741/1000000, 998845/1000000]),
   ("n06", [267859/100, 913461/1000, -1], [194528/100000, 505261/1000000, -1], [998976/1000000, 998636/1000000, -1]),
   ("tn", [267250/100, 913041/1000, -1], [211244/100000, 531096/1000000, -1], [100119/100000, 998563/1000000, -1]),
   ("aatsr", [268159/100, 923695/1000, 832715/1000], [177887/100000, 454752/1000000, 498667/1000000], [998005/1000000, 998814/1000000, 998525/1000000]),
   ("atsr1", [268635/100, 918255/1000, 841035/1000], [213333/100000, 532039/1000000, 432575/1000000], [995620/1000000, 998695/1000000, 998729/1000000]),
   ("atsr2", [269900/100, 917236/1000, 831569/1000], [204002/100000, 597643/1000000, 467731/1000000], [990740/1000000, 998578/1000000, 998620/1000000])]

/-- L8-85 `return_band_coefs` (called by `__init__`, L159-161). -/
def returnBandCoefs (instr : String) : Py BandCoefs :=
  match bandTable.find? (fun e => e.1 == instr) with
  | some e => .ok ⟨e.2.1, e.2.2.1, e.2.2.2⟩
  | none => .error .runtimeError

/-- Python `l[i]` for any integer index: negative indices count from the end. -/
def pyAt {β : Type} (l : List β) (i : Int) : Py β :=
  if 0 ≤ i then pyGet l i.toNat else if -(l.length : Int) ≤ i then pyGet l (l.length + i).toNat else .error .indexError

/-- L95-96 (L133-134): the radiation constants. -/
noncomputable def radC1 : ℝ := 1191062 / 10 ^ 11
noncomputable def radC2 : ℝ := 14387863 / 10 ^ 7

/-- L92-93 (L130-131) and the look-ups of the channel: wave number and band corrections of channel `filterval`. -/
def bandOf (c : BandCoefs) (filterval : Int) : Py (ℚ × ℚ × ℚ) := do
  let nu ← pyAt c.nuc (filterval - 1)
  if nu < 0 then .error .runtimeError
  else do
    let a ← pyAt c.aval (filterval - 1)
    let b ← pyAt c.bval (filterval - 1)
    pure (nu, a, b)

/-- L110-111, L113-114 (L117-121): the radiance of a temperature. -/
noncomputable def planckRadiance (nu a b T : ℝ) : ℝ := radC1 * nu ^ 3 / (Real.exp (radC2 * nu / (a + b * T)) - 1)

/-- L88-123 `temp2rad` for a number. `C2*nuc/tstar` with `tstar == 0` is a `ZeroDivisionError`. -/
noncomputable def temp2radScalar (c : BandCoefs) (T : ℝ) (filterval : Int) : Py ℝ := by
  classical exact do
    let (nu, a, b) ← bandOf c filterval
    if (a : ℝ) + b * T = 0 then .error .zeroDivisionError
    else pure (planckRadiance nu a b T)

/-- L98-114 `temp2rad` for an array: elements not above zero or not finite are `nan` in arrays of one, two or three dimensions, and 0 in arrays with more dimensions (or
none), which are not filled with `nan` first. -/
noncomputable def temp2radArray (c : BandCoefs) (dims : Nat) (T : List (Option ℝ)) (filterval : Int) : Py (List (Option ℝ)) := by
  classical exact do
    let (nu, a, b) ← bandOf c filterval
    pure (T.map fun t =>
      match t with
      | some x => if 0 < x then some (planckRadiance nu a b x) else if 1 ≤ dims ∧ dims ≤ 3 then none else some 0
      | none => if 1 ≤ dims ∧ dims ≤ 3 then none else some 0)

/-- L128-157 `rad2temp`: after the check of the channel, L136 tests the name `temperature`, which is not defined there: `NameError`. -/
def rad2temp {β : Type} (c : BandCoefs) (_rad : β) (filterval : Int) : Py β := do
  let _ ← bandOf c filterval
  .error .nameError

/-- L149-153: the value `rad2temp` would return for a number. -/
noncomputable def inverseRadiance (nu a b R : ℝ) : ℝ := (radC2 * nu / Real.log (radC1 * nu ^ 3 / R + 1) - a) / b

end Verif
