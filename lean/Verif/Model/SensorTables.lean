import Verif.Model.CsvFiles

/-!
# Tables of the measurements of the sensors

`process` of /repo/src/auv_nav/process.py L592-640 starts six threads, each of which writes
the measurements of one sensor to a table in `csv/sensor_values_and_uncertainties`, and goes
on meanwhile.  While the threads write, the main thread stores further values in some of the
measurements (L641-667, L1009-1087) and may remove the first inertial velocity from the list
that a thread is writing (L1089-1090).  A step of a thread is to open a table and write the
names of the columns, or to make and append one line (/repo/src/auv_nav/tools/csv_tools.py
L65-91; C38 and C39 treat these at the level of file operations).  The type `K` of values and
their texts are left open.  A thread takes the length of its list when it starts; a line that
is missing when its turn comes ends the thread (csv_tools.py L92-98: `Console.quit` ends the
thread only), and it can only be the last one, so that it is modelled as adding nothing.
-/

namespace Oplab

/-- The tables. (process.py L596-638) -/
inductive SensorTable where
  | velocityBody
  | velocityInertial
  | altitude
  | orientation
  | depth
  | usbl
  deriving DecidableEq

/-- What the table of body velocities shows of one. (sensors.py L402-429) -/
structure BodyVelRow (K : Type) where
  time : K
  x : K
  y : K
  z : K
  xStd : K
  yStd : K
  zStd : K
  deriving DecidableEq

/-- Values the main thread stores in an inertial velocity. (process.py L1009-1087) -/
structure InertialExtra (K : Type) where
  roll : K
  pitch : K
  yaw : K
  depth : K
  northings : K
  eastings : K
  deriving DecidableEq

/-- An inertial velocity. (sensors.py L572-599) -/
structure InertialVelRow (K : Type) where
  time : K
  east : K
  north : K
  down : K
  eastStd : K
  northStd : K
  downStd : K
  extra : InertialExtra K
  deriving DecidableEq

/-- An altitude; the main thread stores `seafloor`. (sensors.py L1042-1087; process.py
L641-667) -/
structure AltitudeRow (K : Type) where
  time : K
  altitude : K
  std : K
  seafloor : K
  deriving DecidableEq

/-- An orientation. (sensors.py L774-801) -/
structure OrientationRow (K : Type) where
  time : K
  roll : K
  pitch : K
  yaw : K
  rollStd : K
  pitchStd : K
  yawStd : K
  deriving DecidableEq

/-- A depth. (sensors.py L952-963) -/
structure DepthRow (K : Type) where
  time : K
  depth : K
  std : K
  deriving DecidableEq

/-- A USBL fix. (sensors.py L1408-1450) -/
structure UsblRow (K : Type) where
  time : K
  latitude : K
  longitude : K
  northings : K
  eastings : K
  depth : K
  distance : K
  latitudeStd : K
  longitudeStd : K
  northingsStd : K
  eastingsStd : K
  depthStd : K
  deriving DecidableEq

/-- The lists of measurements in memory. (process.py L570-590) -/
structure SensorLists (K : Type) where
  velocityBody : List (BodyVelRow K)
  velocityInertial : List (InertialVelRow K)
  altitude : List (AltitudeRow K)
  orientation : List (OrientationRow K)
  depth : List (DepthRow K)
  usbl : List (UsblRow K)
  deriving DecidableEq

/-- Texts with commas between them and an end of line. (sensors.py L413-429) -/
def tableLine : List Text → Text
  | [] => ['\n']
  | [a] => a ++ ['\n']
  | a :: b :: r => a ++ ',' :: tableLine (b :: r)

/-- The names of columns. (`get_csv_header`: sensors.py L402-411, L572-581, L774-783,
L952-953, L1083-1084, L1408-1422) -/
def SensorTable.columns : SensorTable → List String
  | .velocityBody => ["epoch_timestamp", "x_velocity", "y_velocity", "z_velocity",
      "x_velocity_std", "y_velocity_std", "z_velocity_std"]
  | .velocityInertial => ["epoch_timestamp", "east_velocity", "north_velocity", "down_velocity",
      "east_velocity_std", "north_velocity_std", "down_velocity_std"]
  | .altitude => ["epoch_timestamp", "altitude"]
  | .orientation => ["epoch_timestamp", "roll", "pitch", "yaw", "roll_std", "pitch_std", "yaw_std"]
  | .depth => ["epoch_timestamp", "depth", "depth_std"]
  | .usbl => ["epoch_timestamp", "latitude", "longitude", "northings", "eastings", "depth",
      "distance_to_ship", "latitude_std", "longitude_std", "northings_std", "eastings_std",
      "depth_std"]

/-- The first line of a table. (csv_tools.py L65-69) -/
def SensorTable.header (t : SensorTable) : Text := tableLine (t.columns.map String.toList)

/-- The values in the lines of a table. (`to_csv_row`: sensors.py L413-429, L583-599,
L785-801, L955-963, L1086-1087, L1424-1450) -/
def SensorLists.values {K : Type} (s : SensorLists K) : SensorTable → List (List K)
  | .velocityBody => s.velocityBody.map fun m => [m.time, m.x, m.y, m.z, m.xStd, m.yStd, m.zStd]
  | .velocityInertial => s.velocityInertial.map fun m =>
      [m.time, m.east, m.north, m.down, m.eastStd, m.northStd, m.downStd]
  | .altitude => s.altitude.map fun m => [m.time, m.altitude]
  | .orientation => s.orientation.map fun m =>
      [m.time, m.roll, m.pitch, m.yaw, m.rollStd, m.pitchStd, m.yawStd]
  | .depth => s.depth.map fun m => [m.time, m.depth, m.std]
  | .usbl => s.usbl.map fun m => [m.time, m.latitude, m.longitude, m.northings, m.eastings, m.depth,
      m.distance, m.latitudeStd, m.longitudeStd, m.northingsStd, m.eastingsStd, m.depthStd]

/-- The lines of a table. (sensors.py L413-429) -/
def SensorLists.lines {K : Type} (str : K → Text) (s : SensorLists K) (t : SensorTable) : List Text :=
  (s.values t).map fun vs => tableLine (vs.map str)

/-- Steps of the threads and of the main thread. (csv_tools.py L65-91; process.py L641-667,
L1009-1090) -/
inductive TableStep (K : Type) where
  | create (t : SensorTable)
  | append (t : SensorTable) (i : Nat)
  | seafloor (i : Nat) (v : K)
  | extra (i : Nat) (v : InertialExtra K)
  | dropFirst

/-- The measurements in memory and the tables on the disk. -/
structure TableState (K : Type) where
  lists : SensorLists K
  disk : SensorTable → Option Text

/-- One step: a line is made from the measurement as it is at that moment. (csv_tools.py
L65-91; process.py L641-667, L1009-1087) -/
def TableState.step {K : Type} (str : K → Text) (s : TableState K) : TableStep K → TableState K
  | .create t => ⟨s.lists, fun u => if u = t then some t.header else s.disk u⟩
  | .append t i =>
    let old := (s.disk t).getD []
    let line := ((s.lists.lines str t)[i]?).getD []
    ⟨s.lists, fun u => if u = t then some (old ++ line) else s.disk u⟩
  | .seafloor i v => { s with lists := { s.lists with
      altitude := s.lists.altitude.modify i fun m => { m with seafloor := v } } }
  | .extra i v => { s with lists := { s.lists with
      velocityInertial := s.lists.velocityInertial.modify i fun m => { m with extra := v } } }
  | .dropFirst => { s with lists := { s.lists with velocityInertial := s.lists.velocityInertial.tail } }

/-- Steps one after another. (csv_tools.py L65-91) -/
def TableState.run {K : Type} (str : K → Text) (s : TableState K) (l : List (TableStep K)) : TableState K :=
  l.foldl (TableState.step str) s

/-- What one thread does for a list of `n` measurements: nothing for fewer than two.
(csv_tools.py L48, L64-91) -/
def tableWriter {K : Type} (t : SensorTable) (n : Nat) : List (TableStep K) :=
  if 1 < n then .create t :: (List.range n).map (.append t) else []

/-- Steps of the main thread. (process.py L641-667, L1009-1087) -/
def TableStep.isMain {K : Type} : TableStep K → Bool
  | .seafloor _ _ => true
  | .extra _ _ => true
  | .dropFirst => true
  | _ => false

/-- The main thread and the six threads it starts. (process.py L592-640) -/
def tableThreads {K : Type} (s : SensorLists K) (main : List (TableStep K)) : List (List (TableStep K)) :=
  [main, tableWriter .velocityBody s.velocityBody.length,
   tableWriter .velocityInertial s.velocityInertial.length, tableWriter .altitude s.altitude.length,
   tableWriter .orientation s.orientation.length, tableWriter .depth s.depth.length,
   tableWriter .usbl s.usbl.length]

end Oplab
