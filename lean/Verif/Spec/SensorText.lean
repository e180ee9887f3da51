import Verif.Model.SensorText
import Verif.Spec.Geometry

/-!
# Reading the texts of the sensors
-/

namespace Oplab.Spec
open Oplab Real

/-- The named values of a row of a table: the names are in the first line, names and values are separated by commas. -/
def tableRow (header row : Text) : List (Text × Text) := (readLine header).zip (readLine row)

/-- A row has as many values as there are names, and they are these. -/
def RowIs (header row : Text) (l : List (String × Text)) : Prop :=
  (readLine header).length = (readLine row).length ∧ tableRow header row = l.map fun e => (e.1.toList, e.2)

/-- The words of a line, separated by blanks. -/
def wordsOf (line : Text) : List Text := (splitAtSep isBlank line).filter fun w => !w.isEmpty

/-- The text of a value in a table: no comma. -/
def NoComma (t : Text) : Prop := ',' ∉ t

/-- The text of a value in a line: not empty and without blanks. -/
def IsWord (t : Text) : Prop := t ≠ [] ∧ ∀ c ∈ t, isBlank c = false

/-- Full property: a sidescan line holds the pose's longitude if it has one. -/
def SidescanLongitude : Prop :=
  ∀ (date time f6 f3 : ℝ → Text) (p : SidescanPose) (t : Text) (lon : ℝ), (∀ x, IsWord (date x) ∧ IsWord (time x) ∧ IsWord (f6 x) ∧ IsWord (f3 x)) →
    sidescanRow date time f6 f3 p = .ok t → p.longitude = some lon → (wordsOf t)[4]? = some (f6 lon)

/-- `b` (degrees) is the bearing of a point that is `north` and `east` of the observer. -/
def IsBearing (north east b : ℝ) : Prop :=
  -180 < b ∧ b ≤ 180 ∧ ∃ r, 0 ≤ r ∧ north = r * cos (rad b) ∧ east = r * sin (rad b)

/-- Full property: the bearing is that of the vehicle seen from the ship. -/
def AcfrBearing : Prop :=
  ∀ n e nShip eShip : ℝ, IsBearing (n - nShip) (e - eShip) (acfrBearing n e)

end Oplab.Spec
