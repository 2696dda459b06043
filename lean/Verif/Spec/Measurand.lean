import Verif.Model.Measurand
/-
What the measurand of one sensor in one series should be, in terms of the file and the sensor data dictionary.
-/
set_option autoImplicit false
namespace Verif
variable {α δ : Type}

/-- `y` (one value per match-up) is what the model listed for the sensor of side `s` gives on the columns of that side of file `d`, the
sensor's own parameters and constants, and the sensor's track indices and times in that series. -/
def MeasuredBy (sd : SensorData α (SensorModel α δ) (AdjModel α)) (mu : MatchUp α δ) (series : Nat) (d : Dataset α) (s : Side α) (y : List α) :
    Prop :=
  ∃ e xt al t J, (s.name, e) ∈ sd ∧
    mu.getSensorAcrossTrackIndex series s.name = .ok xt ∧ mu.getSensorAlongTrackIndex series s.name = .ok al ∧
    mu.getSensorTime series s.name = .ok t ∧
    e.model ((List.range s.m).map fun c => (List.range d.M).map fun r => s.X r c) e.parameter e.constant xt al t = .ok (y, J) ∧
    y.length = d.M

/-- The same, with the derivatives `J` the model returns (or `None`). -/
def MeasuredWith (sd : SensorData α (SensorModel α δ) (AdjModel α)) (mu : MatchUp α δ) (series : Nat) (d : Dataset α) (s : Side α) (y : List α)
    (J : Option (List (List α))) : Prop :=
  ∃ e xt al t, (s.name, e) ∈ sd ∧
    mu.getSensorAcrossTrackIndex series s.name = .ok xt ∧ mu.getSensorAlongTrackIndex series s.name = .ok al ∧
    mu.getSensorTime series s.name = .ok t ∧
    e.model ((List.range s.m).map fun c => (List.range d.M).map fun r => s.X r c) e.parameter e.constant xt al t = .ok (y, J) ∧
    y.length = d.M

/-- `a` is `y` adjusted by the adjustment model listed for the sensor, or `y` itself when none is listed. -/
def AdjustedBy (sd : SensorData α (SensorModel α δ) (AdjModel α)) (s : Side α) (y a : List α) : Prop :=
  ∃ e, (s.name, e) ∈ sd ∧ a.length = y.length ∧
    ((e.adjustment_model = none ∧ a = y) ∨
      ∃ g d, e.adjustment_model ≠ none ∧ e.sensor_adjustment_model = some g ∧ g y = .ok (a, d))

end Verif
