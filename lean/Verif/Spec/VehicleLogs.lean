import Verif.Model.VehicleLogs

/-! What logs of vehicles hold, independent of the parsers. -/

namespace Oplab.Spec
open Real

/-- A measurement of the right kind and without NaN is in the row: for velocities and altitudes only with bottom lock. -/
def AlrHas (c : VehicleCategory) (r : AlrRow) : Prop :=
  match c with
  | .velocity => r.lock = some 1 ∧ r.v.x ≠ none ∧ r.v.y ≠ none ∧ r.v.z ≠ none
  | .orientation => r.roll ≠ none ∧ r.pitch ≠ none ∧ r.heading ≠ none
  | .depth => r.depth ≠ none
  | .altitude => r.lock = some 1 ∧ r.altitude ≠ none
  | .usbl => r.latitude ≠ none ∧ r.longitude ≠ none

/-- The record says what the row says: velocities in m/s, angles in degrees for angles in radians, the rest as it is. -/
def AlrSays (r : AlrRow) : VehicleRecord → Prop
  | .velocity v _ => r.v = ⟨some v.x, some v.y, some v.z⟩
  | .orientation a b c => r.roll = some (a * π / 180) ∧ r.pitch = some (b * π / 180) ∧ r.heading = some (c * π / 180)
  | .depth d _ => r.depth = some d
  | .altitude a _ => r.altitude = some a
  | .position la lo d => r.latitude = some la ∧ r.longitude = some lo ∧ r.depth = d

/-- The category of a record. -/
def categoryOf : VehicleRecord → VehicleCategory
  | .velocity _ _ => .velocity
  | .orientation _ _ _ => .orientation
  | .depth _ _ => .depth
  | .altitude _ _ => .altitude
  | .position _ _ _ => .usbl

/-- Standard deviations are not negative. -/
def StdOk : VehicleRecord → Prop
  | .velocity _ s => 0 ≤ s.x ∧ 0 ≤ s.y ∧ 0 ≤ s.z
  | .depth _ s => 0 ≤ s
  | .altitude _ s => 0 ≤ s
  | _ => True

/-- A telegram with three numbers. -/
def EivaComplete (m : EivaMsg) (r p h : ℝ) : Prop := m.t ≠ 0 ∧ m.roll = some (some r) ∧ m.pitch = some (some p) ∧ m.heading = some (some h)

/-- A telegram that does not have its three fields. -/
def EivaMissing (m : EivaMsg) : Prop := m.roll = none ∨ m.pitch = none ∨ m.heading = none

end Oplab.Spec
