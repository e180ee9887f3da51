import Verif.Model.SensorTables

/-! # What the tables of the sensors should hold -/

namespace Oplab.Spec

open Oplab

/-- Pieces of a text between occurrences of a character. -/
def pieces (c : Char) : Text → List Text
  | [] => [[]]
  | x :: r =>
    if x = c then [] :: pieces c r
    else match pieces c r with
      | [] => [[x]]
      | p :: ps => (x :: p) :: ps

/-- A table as programs read it: for every line after the first, the texts with the names of
their columns. -/
def readTable (t : Text) : List (List (Text × Text)) :=
  match (pieces '\n' t).dropLast with
  | [] => []
  | h :: ls => ls.map fun l => (pieces ',' h).zip (pieces ',' l)

/-- What a table should show: every measurement, in order, each value with its name. -/
def shown {K : Type} (s : SensorLists K) : SensorTable → List (List (String × K))
  | .velocityBody => s.velocityBody.map fun m => [("epoch_timestamp", m.time), ("x_velocity", m.x),
      ("y_velocity", m.y), ("z_velocity", m.z), ("x_velocity_std", m.xStd), ("y_velocity_std", m.yStd),
      ("z_velocity_std", m.zStd)]
  | .velocityInertial => s.velocityInertial.map fun m => [("epoch_timestamp", m.time),
      ("east_velocity", m.east), ("north_velocity", m.north), ("down_velocity", m.down),
      ("east_velocity_std", m.eastStd), ("north_velocity_std", m.northStd), ("down_velocity_std", m.downStd)]
  | .altitude => s.altitude.map fun m => [("epoch_timestamp", m.time), ("altitude", m.altitude)]
  | .orientation => s.orientation.map fun m => [("epoch_timestamp", m.time), ("roll", m.roll),
      ("pitch", m.pitch), ("yaw", m.yaw), ("roll_std", m.rollStd), ("pitch_std", m.pitchStd),
      ("yaw_std", m.yawStd)]
  | .depth => s.depth.map fun m => [("epoch_timestamp", m.time), ("depth", m.depth), ("depth_std", m.std)]
  | .usbl => s.usbl.map fun m => [("epoch_timestamp", m.time), ("latitude", m.latitude),
      ("longitude", m.longitude), ("northings", m.northings), ("eastings", m.eastings),
      ("depth", m.depth), ("distance_to_ship", m.distance), ("latitude_std", m.latitudeStd),
      ("longitude_std", m.longitudeStd), ("northings_std", m.northingsStd),
      ("eastings_std", m.eastingsStd), ("depth_std", m.depthStd)]

/-- The values as texts. -/
def asTexts {K : Type} (str : K → Text) (t : List (List (String × K))) : List (List (Text × Text)) :=
  t.map fun l => l.map fun p => (p.1.toList, str p.2)

/-- C272 without conditions: after the threads every table shows its measurements, however
many there are. -/
def TablesComplete : Prop :=
  ∀ (str : Nat → Text) (s : TableState Nat) (main l : List (TableStep Nat)) (t : SensorTable),
    (∀ v, ',' ∉ str v ∧ '\n' ∉ str v) → (∀ o ∈ main, o.isMain = true) →
    Interleave (tableThreads s.lists main) l → shown s.lists t ≠ [] →
    ∃ f, (s.run str l).disk t = some f ∧ readTable f = asTexts str (shown s.lists t)

/-- C272 for tables of several measurements: they are complete for every schedule. -/
def TablesScheduleFree : Prop :=
  ∀ (str : Nat → Text) (s : TableState Nat) (main l : List (TableStep Nat)) (t : SensorTable),
    (∀ v, ',' ∉ str v ∧ '\n' ∉ str v) → (∀ o ∈ main, o.isMain = true) →
    Interleave (tableThreads s.lists main) l → 2 ≤ (shown s.lists t).length →
    ∃ f, (s.run str l).disk t = some f ∧ readTable f = asTexts str (shown s.lists t)

/-- C272 for the folder's name: the uncertainties of altitudes can be read from the table. -/
def AltitudeStdShown : Prop :=
  ∀ (str : Nat → Text) (s s' : TableState Nat) (l l' : List (TableStep Nat)),
    Function.Injective str → (∀ v, ',' ∉ str v ∧ '\n' ∉ str v) →
    Interleave (tableThreads s.lists []) l → Interleave (tableThreads s'.lists []) l' →
    (s.run str l).disk .altitude = (s'.run str l').disk .altitude →
    2 ≤ s.lists.altitude.length → 2 ≤ s'.lists.altitude.length →
    s.lists.altitude.map AltitudeRow.std = s'.lists.altitude.map AltitudeRow.std

end Oplab.Spec
