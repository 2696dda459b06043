import Verif.Model.GN
import Verif.Spec.WMatrix
import Verif.Spec.Reader
/-
What it takes for a match-up with sensor models to be solvable: sizes only, stated on the match-up as opened (before normalisation).
-/
set_option autoImplicit false
namespace Verif
variable {α δ : Type}

/-- The model of a sensor being calibrated, with `m` covariates, constants `c` and `p` parameters: for covariate columns of any common length `k` it
returns a measurand of `k` values and `m + p` derivative columns of `k` values. -/
def SensorModel.Calibrated (f : SensorModel α δ) (m : Nat) (c : List α) (p : Nat) : Prop :=
  ∀ (X : List (List α)) (a : List α) (xt al : Option (List α)) (t : Option (List δ)) (k : Nat),
    X.length = m → (∀ col ∈ X, col.length = k) → a.length = p →
    ∃ R J, f X a c xt al t = .ok (R, some J) ∧ R.length = k ∧ J.length = m + p ∧ ∀ col ∈ J, col.length = k

/-- The model of a reference sensor with `m` covariates: the measurand is the first covariate, and there are no derivatives. -/
def SensorModel.Reference (f : SensorModel α δ) (m : Nat) (c : List α) : Prop :=
  ∀ (X : List (List α)) (a : List α) (xt al : Option (List α)) (t : Option (List δ)),
    X.length = m → f X a c xt al t = .ok (X.headD [], none)

/-- An adjustment model returns as many values and derivatives as it is given. -/
def AdjModel.Sized (B : AdjModel α) : Prop := ∀ R, ∃ r d, B R = .ok (r, d) ∧ r.length = R.length ∧ d.length = R.length

/-- The uncertainty of a block of `n` match-ups has the right sizes: one random (and systematic) uncertainty per match-up, or a W matrix with one row
per match-up and one uncertainty per column; systematic effects are numbered from 1. -/
def UncBlock.Fits (mu : MatchUp α δ) (u : UncBlock α) (n : Nat) : Prop :=
  match u.unc with
  | .independent uR => uR.length = n
  | .systematic uR uS => uR.length = n ∧ uS.length = n ∧ ∃ q, u.uS_i = some q ∧ 1 ≤ q
  | .structured w_i u_i => ∃ w uv, mu.w_matrices[w_i]? = some (some w) ∧ mu.u_matrices[u_i]? = some (some uv) ∧ w.Shape ∧ w.nrows = n ∧
      uv.length = w.ncols
  | .structuredSystematic w_i u_i _ => (∃ w uv, mu.w_matrices[w_i]? = some (some w) ∧ mu.u_matrices[u_i]? = some (some uv) ∧ w.Shape ∧ w.nrows = n ∧
      uv.length = w.ncols) ∧ ∃ q, u.uS_i = some q ∧ 1 ≤ q

/-- The covariate numbers of the blocks of one sensor in one series, in block order. -/
def Idx.covNumbers (x : Idx) (s n : Nat) : List Nat := (x.blocks.filter fun b => b.1 == s && b.2.1 == n).map (·.2.2)

/-- The elements of `vals` labelled `name`. -/
def labelled (labels : List String) (vals : List α) (name : String) : List α := ((labels.zip vals).filter fun p => p.1 == name).map (·.2)

/-- One sensor of one series, `m` being the number of covariates of the sensors being calibrated. -/
def Evaluable.SideReady (ms : Evaluable α δ) (labels clabels : List String) (m n s : Nat) : Prop :=
  ∃ name q f B, ms.mu.idx.sensors[s]? = some name ∧ ms.mu.idx.sensor_ms[s]? = some q ∧ ms.sensor_model[s]? = some f ∧
    ms.adjustment_model[s]? = some B ∧ B.Sized ∧ 1 ≤ q ∧ ms.mu.idx.covNumbers s n = (List.range q).map (· + 1) ∧
    ((f.Calibrated q (labelled clabels ms.constant name) (labels.count name) ∧ q = m ∧ name ∈ labels) ∨
     (f.Reference q (labelled clabels ms.constant name) ∧
       ∀ (b c : Nat) (u : UncBlock α), ms.mu.idx.blocks[b]? = some (s, n, c) → ms.mu.unc[b]? = some u → u.unc.typeID = 1 ∨ u.unc.typeID = 2))

/-- The match-up as a whole. -/
structure Evaluable.SolverReady (ms : Evaluable α δ) (labels clabels : List String) (m : Nat) : Prop where
  wf : ms.mu.WF
  tables : ms.mu.idx.n_sensor.length = ms.mu.idx.n_mu.length ∧ ms.mu.idx.n_cov.length = ms.mu.idx.n_mu.length
  orig : ms.mu.original_idx = ms.mu.idx
  pairs : ms.mu.idx.Im.length = ms.mu.idx.Nm.length
  blocks : ∀ (b n : Nat) (u : UncBlock α), ms.mu.unc[b]? = some u → ms.mu.idx.N_var[b]? = some n → u.Fits ms.mu n
  parameters : ms.mu.idx.parameter_sensor = some labels ∧ labels.length = ms.a.length
  constants : ms.mu.idx.constant_sensor = some clabels
  covariates : ms.mu.idx.n_cov.getLast? = some m
  distinct : ∀ pair ∈ ms.mu.idx.Im, pair.1 ≠ pair.2 ∧ ms.mu.idx.sensors[pair.1]? ≠ ms.mu.idx.sensors[pair.2]?
  sides : ∀ (i : Nat) (pair : Nat × Nat), ms.mu.idx.Im[i]? = some pair →
    ms.SideReady labels clabels m (i + 1) pair.1 ∧ ms.SideReady labels clabels m (i + 1) pair.2

/-- The solver object that `GNAlgo` builds on a normalised match-up, at any estimate `xyza` of the right length and with any square preconditioner of
the size of the parameters. -/
structure GN.Solves (g : GN α δ) (ms : Evaluable α δ) [Field α] : Prop where
  norm : ms.normalise = .ok g.hd
  xyza : g.xyza.length = g.hd.mu.values.length + g.hd.a.length
  rows : g.S.length = g.hd.a.length
  cols : ∀ r ∈ g.S, r.length = g.hd.a.length

/-- Scalar product of two vectors of the same length. -/
def dotp [Field α] (a b : List α) : α := (List.zipWith (· * ·) a b).sum

/-- The two sides of a file. -/
def Dataset.HasSide (d : Dataset α) (s : Side α) : Prop := s = d.s1 ∨ s = d.s2

/-- Files and sensor data which can be harmonised, `m` being the number of data columns of the sensors being calibrated (and the largest number of data
columns): each sensor has a data column; W matrices have a row per match-up, u vectors an element per column; the sensor data has one entry per name; a sensor is
either calibrated, with `m` columns and at least one parameter, or a reference whose uncertainties are of type 1 or 2. -/
structure SolvableFiles [Zero α] (ds : List (Dataset α)) (sd : SensorData α (SensorModel α δ) (AdjModel α)) (m : Nat) : Prop where
  consistent : ConsistentFiles ds
  keys : (sd.map (·.1)).Nodup
  columns : ∀ d ∈ ds, ∀ s, d.HasSide s → 1 ≤ s.m ∧ s.m ≤ m
  largest : ∃ d ∈ ds, ∃ s, d.HasSide s ∧ s.m = m
  matrices : ∀ d ∈ ds, ∀ s, d.HasSide s → ∀ c W U, c < s.m → s.utype c = 3 ∨ s.utype c = 4 → openW d (s.wUse c) = .ok W → openU d (s.uUse c) = .ok U →
    W.Shape ∧ W.nrows = d.M ∧ U.length = W.ncols
  sensors : ∀ d ∈ ds, ∀ s, d.HasSide s → ∀ e, (s.name, e) ∈ sd → (∀ B, e.sensor_adjustment_model = some B → B.Sized) ∧
    ((e.model.Calibrated m e.constant e.parameter.length ∧ s.m = m ∧ e.parameter ≠ []) ∨
     (e.model.Reference s.m e.constant ∧ ∀ c, c < s.m → s.utype c = 1 ∨ s.utype c = 2))

end Verif
