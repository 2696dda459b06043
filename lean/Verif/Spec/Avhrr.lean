import Verif.Model.AvhrrTool
import Verif.Spec.Rolling
import Verif.Spec.Checker
/-
What the files made from an AVHRR match-up file hold.
-/
set_option autoImplicit false
namespace Verif
variable {α : Type}

/-- The match-ups kept: those without nan among their scan-line uncertainties, in order. -/
structure AvhrrRaw.Kept (raw : AvhrrRaw α) (kept : List Nat) : Prop where
  increasing : kept.Pairwise (· < ·)
  mem : ∀ r, r ∈ kept ↔ r < raw.M ∧ ∀ u ∈ [raw.uS1, raw.uI1, raw.uS2, raw.uI2], none ∉ u.getD r []

/-- A file the tool is meant for: known sensors; scan-line uncertainties for every match-up, kernels of `k1` and `k2` scan lines; brightness temperatures of one band. -/
structure AvhrrRaw.Usable (raw : AvhrrRaw α) (n1 n2 band : String) (k1 k2 : Nat) : Prop where
  name1 : (raw.lm.1, n1) ∈ avhrrNames
  name2 : (raw.lm.2, n2) ∈ avhrrNames
  rows : ∀ u ∈ [raw.uS1, raw.uI1, raw.uS2, raw.uI2], u.length = raw.M
  kernel1 : raw.refFirst = false → 0 < k1 ∧ ∀ row ∈ raw.uS1 ++ raw.uI1, row.length = k1
  kernel2 : 0 < k2 ∧ ∀ row ∈ raw.uS2 ++ raw.uI2, row.length = k2
  infrared : band = "37" ∨ band = "11" ∨ band = "12"
  bt : "BT" ++ band ∈ raw.vars.map (·.1)
  onlyBt : ∀ n ∈ raw.vars.map (·.1), ['B', 'T'] <:+: n.toList → n = "BT" ++ band ∨ n = "ref_BT" ++ band
  names : (raw.vars.map (·.1)).Nodup

/-- The name in the file given of an additional variable: brightness temperatures carry the band. -/
def rawName (band old : String) : String := if old = "BT" ∨ old = "ref_BT" then old ++ band else old

/-- A variable `old` of the file given is copied under the name `n`: a quantity of the second sensor, or of the first one (whose names begin with `ref_`). -/
def AvhrrCopied (old n : String) : Prop :=
  ∃ q ∈ [("latitude", "lat"), ("longitude", "lon"), ("satza", "vza"), ("solza", "sza"), ("BT", "nominal_measurand")],
    (old = q.1 ∧ n = q.2 ++ "2") ∨ (old = "ref_" ++ q.1 ∧ n = q.2 ++ "1")

/-- The additional variables of a file: the renamed ones that exist, the numbers of the match-ups in the file given, and the orbital temperature if it is not a covariate. -/
def AvhrrAdditional [Field α] (raw : AvhrrRaw α) (kept : List Nat) (band : String) (m1 m2 : Nat) (n : String) (v : List α) : Prop :=
  (n = "original_indices" ∧ v = kept.map fun (r : Nat) => (r : α)) ∨
  (∃ old x, AvhrrCopied old n ∧ (rawName band old, x) ∈ raw.vars ∧ v = kept.map fun r => x.getD r 0) ∨
  (n = "To1" ∧ m1 = 4 ∧ v = kept.map fun r => raw.H r 4) ∨ (n = "To2" ∧ m2 = 4 ∧ v = kept.map fun r => raw.H r 9)

/-- What all six files have in common: the kept match-ups, with the first `m1` and `m2` covariates. -/
structure Dataset.AvhrrFile [Field α] (d : Dataset α) (raw : AvhrrRaw α) (kept : List Nat) (n1 n2 band : String) (m1 m2 : Nat) : Prop where
  M : d.M = kept.length
  names : d.s1.name = n1 ∧ d.s2.name = n2
  covariates : d.s1.m = m1 ∧ d.s2.m = m2
  X1 : ∀ (i r c : Nat), kept[i]? = some r → c < m1 → d.s1.X i c = raw.H r c
  X2 : ∀ (i r c : Nat), kept[i]? = some r → c < m2 → d.s2.X i c = raw.H r (5 + c)
  K : ∀ (i r : Nat), kept[i]? = some r → d.K i = raw.K r ∧ d.Kr i = raw.Kr r ∧ d.Ks i = raw.Ks r
  time : ∀ (i r : Nat), kept[i]? = some r → d.time1 i = raw.time1 r ∧ d.time2 i = raw.time2 r
  additional : ∀ n v, (n, v) ∈ d.vars ↔ v.dims = ["M"] ∧ AvhrrAdditional raw kept band m1 m2 n v.data

/-- `rows` lists, for each match-up, the uncertainties of consecutive scan lines starting at the line of the match-up; line `q` has uncertainty `u0 q`. -/
def ScanLineUnc [Zero α] [LE α] (rows : List (List α)) (pos : List Nat) (u0 : Nat → α) : Prop :=
  (∀ q, 0 ≤ u0 q) ∧ ∀ (i p : Nat) (row : List α), pos[i]? = some p → rows[i]? = some row → ∀ (j : Nat) (x : α), row[j]? = some x → x = u0 (p + j)

section
variable [Field α] [LinearOrder α]

/-- The file has for column `c` a W matrix that averages, with equal weights, over the `k` scan lines of each match-up, and the uncertainties of these scan lines. -/
def Dataset.AveragesScanLines (d : Dataset α) (s : Side α) (c : Nat) (times : List α) (k : Nat) (rows : List (List α)) : Prop :=
  ∃ W U pos scan, openW d (s.wUse c) = .ok W ∧ openU d (s.uUse c) = .ok U ∧ W.Shape ∧ W.nrows = d.M ∧ U.length = W.ncols ∧ ScanLines (1 / 2) times pos ∧
    W.RollingAverage pos (List.replicate k (1 / (k : α))) scan ∧ ∀ u0, ScanLineUnc rows pos u0 → U = scan.map u0

/-- The uncertainties of a side whose first two columns are averages over scan lines (space and target counts), the third random, the rest with systematic effects if `sys`.
`Ur` and `Us` are the uncertainties given for the kept match-ups. -/
structure Dataset.Structured (d : Dataset α) (s : Side α) (sys : Bool) (Ur Us : Nat → Nat → α) (times : List α) (k : Nat) (uS uI : List (List α)) : Prop where
  space : s.utype 0 = 3 ∧ d.AveragesScanLines s 0 times k uS ∧ ∀ i, i < d.M → s.Ur i 0 = 0
  target : s.utype 1 = 3 ∧ d.AveragesScanLines s 1 times k uI ∧ ∀ i, i < d.M → s.Ur i 1 = 0
  random : s.utype 2 = 1 ∧ ∀ i, i < d.M → s.Ur i 2 = Ur i 2
  rest : ∀ c, 3 ≤ c → c < s.m → s.utype c = (if sys then 2 else 1) ∧ ∀ i, i < d.M → s.Ur i c = Ur i c ∧ s.Us i c = (if sys then Us i c else 0)

/-- The uncertainties of a side with random uncertainties only, the averages being given the **mean of the uncertainties** of their scan lines. -/
structure Dataset.Combined (d : Dataset α) (s : Side α) (Ur : Nat → Nat → α) (times : List α) (k : Nat) (uS uI : List (List α)) : Prop where
  types : ∀ c, c < s.m → s.utype c = 1
  averaged : ∃ pos, ScanLines (1 / 2) times pos ∧ ∀ (rows : List (List α)) (c : Nat), (c = 0 ∧ rows = uS ∨ c = 1 ∧ rows = uI) → ∀ u0, ScanLineUnc rows pos u0 →
    ∀ (i : Nat) (row : List α), i < d.M → rows[i]? = some row → s.Ur i c = row.sum / k
  rest : ∀ c, 2 ≤ c → c < s.m → ∀ i, i < d.M → s.Ur i c = Ur i c

/-- The reference: one column, with random uncertainties. -/
def Dataset.ReferenceSide (d : Dataset α) (s : Side α) (Ur : Nat → Nat → α) : Prop := s.utype 0 = 1 ∧ ∀ i, i < d.M → s.Ur i 0 = Ur i 0

end
end Verif
