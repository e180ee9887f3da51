import Verif.Model.CsvLoad
import Verif.Model.Sonardyne
import Verif.Model.Calib

/-!
Model of the texts that the sensor classes of /repo/src/auv_nav/sensors.py write: rows of tables, lines for the sidescan sonar and
lines for the ACFR programs.  `str` of a number is left abstract: a value is its text.
-/

namespace Oplab

/-- Attributes of `BodyVelocity`, `InertialVelocity` and `Orientation` that go to their tables: time, three components and their
standard deviations. (sensors.py L413-429, L583-599, L785-801) -/
structure TripleRec where
  epoch : Text
  a : Text
  b : Text
  c : Text
  aStd : Text
  bStd : Text
  cStd : Text

/-- sensors.py L402-411 `BodyVelocity.get_csv_header`. -/
def bodyHeaderText : Text := "epoch_timestamp,x_velocity,y_velocity,z_velocity,x_velocity_std,y_velocity_std,z_velocity_std\n".toList

/-- sensors.py L572-581 `InertialVelocity.get_csv_header`. -/
def inertialHeaderText : Text :=
  "epoch_timestamp,east_velocity,north_velocity,down_velocity,east_velocity_std,north_velocity_std,down_velocity_std\n".toList

/-- sensors.py L774-783 `Orientation.get_csv_header`. -/
def orientationHeaderText : Text := "epoch_timestamp,roll,pitch,yaw,roll_std,pitch_std,yaw_std\n".toList

/-- `to_csv_row` of `BodyVelocity` (x, y, z), `InertialVelocity` (east, north, down) and `Orientation` (roll, pitch, yaw).
(sensors.py L413-429, L583-599, L785-801) -/
def tripleRowText (r : TripleRec) : Text :=
  r.epoch ++ [','] ++ r.a ++ [','] ++ r.b ++ [','] ++ r.c ++ [','] ++ r.aStd ++ [','] ++ r.bStd ++ [','] ++ r.cStd ++ ['\n']

/-- sensors.py L952-953 `Depth.get_csv_header`. -/
def depthHeaderText : Text := "epoch_timestamp,depth,depth_std\n".toList

/-- sensors.py L1559-1560 `Tide.get_csv_header`. -/
def tideHeaderText : Text := "epoch_timestamp,height,height_std\n".toList

/-- `to_csv_row` of `Depth` and `Tide`. (sensors.py L955-963, L1562-1570) -/
def pairRowText (epoch value std : Text) : Text := epoch ++ [','] ++ value ++ [','] ++ std ++ ['\n']

/-- sensors.py L1083-1084 `Altitude.get_csv_header`. -/
def altitudeHeaderText : Text := "epoch_timestamp,altitude\n".toList

/-- sensors.py L1086-1087 `Altitude.to_csv_row`. -/
def altitudeRowText (epoch altitude : Text) : Text := epoch ++ [','] ++ altitude ++ ['\n']

/-- Attributes of `Usbl` that go to its table. (sensors.py L1424-1450) -/
structure UsblRec where
  epoch : Text
  latitude : Text
  longitude : Text
  northings : Text
  eastings : Text
  depth : Text
  distance : Text
  latitudeStd : Text
  longitudeStd : Text
  northingsStd : Text
  eastingsStd : Text
  depthStd : Text

/-- sensors.py L1408-1422 `Usbl.get_csv_header`. -/
def usblHeaderText : Text :=
  ("epoch_timestamp,latitude,longitude,northings,eastings,depth,distance_to_ship,latitude_std,longitude_std,northings_std," ++
    "eastings_std,depth_std\n").toList

/-- sensors.py L1424-1450 `Usbl.to_csv_row`. -/
def usblRowText (r : UsblRec) : Text :=
  r.epoch ++ [','] ++ r.latitude ++ [','] ++ r.longitude ++ [','] ++ r.northings ++ [','] ++ r.eastings ++ [','] ++ r.depth ++ [','] ++
    r.distance ++ [','] ++ r.latitudeStd ++ [','] ++ r.longitudeStd ++ [','] ++ r.northingsStd ++ [','] ++ r.eastingsStd ++ [','] ++
    r.depthStd ++ ['\n']

/-! ### Lines for the sidescan sonar -/

/-- Attributes of a pose in a sidescan line; `none` is `None`. (sensors.py L1755-1783) -/
structure SidescanPose where
  epoch : ℝ
  latitude : Option ℝ
  longitude : Option ℝ
  yaw : Option ℝ
  roll : Option ℝ
  pitch : Option ℝ
  altitude : Option ℝ
  depth : Option ℝ
  speed : Option ℝ

/-- sensors.py L1750-1753 `get_sidescan_header`: the line is continued in the text, so the blanks at its start belong to it. -/
def sidescanHeader : Text :=
  "#Mission Date Time NorthDeg EastDeg HeadingDeg             RollDeg PitchDeg Altitude Depth Speed\n".toList

/-- `"{:.3f}".format`: of `None` it is a `TypeError`. (sensors.py L1766-1781) -/
def formatted (f : ℝ → Text) : Option ℝ → Res Text
  | some x => .ok (f x)
  | none => .error .typeError

/-- sensors.py L1755-1783 `to_sidescan_row`: `date`, `time` give the texts of a time, `f6`, `f3` numbers with six or three digits
after the point. -/
noncomputable def sidescanRow (date time f6 f3 : ℝ → Text) (p : SidescanPose) : Res Text := do
  let lat := if p.latitude.isSome then p.latitude else some 0
  let lon := if p.latitude.isSome then p.longitude else some 0
  let lat ← formatted f6 lat
  let lon ← formatted f6 lon
  let yaw ← formatted f3 p.yaw
  let roll ← formatted f3 p.roll
  let pitch ← formatted f3 p.pitch
  let altitude ← formatted f3 p.altitude
  let depth ← formatted f3 p.depth
  let speed ← formatted f3 p.speed
  pure ("M150 ".toList ++ date p.epoch ++ [' '] ++ time p.epoch ++ [' '] ++ lat ++ [' '] ++ lon ++ [' '] ++ yaw ++ [' '] ++ roll ++ [' '] ++
    pitch ++ [' '] ++ altitude ++ [' '] ++ depth ++ [' '] ++ speed ++ ['\n'])

/-- csv_tools.py L246-252: the lines written and the error that ends the writing; an `IndexError` is caught. -/
def sidescanLines : List (Res Text) → Text × Option Err
  | [] => ([], none)
  | .ok t :: rows => let r := sidescanLines rows; (t ++ r.1, r.2)
  | .error .indexError :: _ => ([], none)
  | .error e :: _ => ([], some e)

/-- csv_tools.py L236-255 `write_sidescan_csv`: the text of the file, if one is written, and the error. -/
def sidescanFile (flag : Bool) (rows : List (Res Text)) : Option Text × Option Err :=
  if flag ∧ rows ≠ [] then let r := sidescanLines rows; (some (sidescanHeader ++ r.1), r.2) else (none, none)

/-! ### Lines for the ACFR programs -/

/-- sensors.py L827-845 `Orientation.to_acfr`. -/
def orientationAcfr (r : TripleRec) : Text :=
  "PHINS_COMPASS: ".toList ++ r.epoch ++ " r: ".toList ++ r.a ++ " p: ".toList ++ r.b ++ " h: ".toList ++ r.c ++ " std_r: ".toList ++ r.aStd ++
    " std_p: ".toList ++ r.bStd ++ " std_h: ".toList ++ r.cStd ++ ['\n']

/-- sensors.py L982-984 `Depth.to_acfr`, with the time of the depth sensor. -/
def depthAcfr (depthEpoch depth : Text) : Text := "PAROSCI: ".toList ++ depthEpoch ++ [' '] ++ depth ++ ['\n']

/-- sensors.py L456-482 `BodyVelocity.to_acfr`: velocity `v` (x, y, z), `altitude` and orientation `o` (roll, pitch, yaw). -/
def velocityAcfr (v o : TripleRec) (altitude : Text) : Text :=
  "RDI: ".toList ++ v.epoch ++ " alt:".toList ++ altitude ++ " r1:0 r2:0 r3:0 r4:0  h:".toList ++ o.c ++ " p:".toList ++ o.b ++ " r:".toList ++ o.a ++
    " vx:".toList ++ v.a ++ " vy:".toList ++ v.b ++ " vz:".toList ++ v.c ++
    " nx:0 ny:0 nz:0 COG:0 SOG:0 bt_status:0  h_true:0 p_gimbal:0  sv: -9999.0\n".toList

/-- sensors.py L1497-1505: the horizontal range; a negative number below the root is reported, and the range stays -1. -/
noncomputable def acfrRange (distance : Option ℝ) (depth : ℝ) : ℝ :=
  match distance with
  | none => -1
  | some d =>
    if d > depth ∧ d > 0 then
      if d ^ 2 - depth ^ 2 < 0 then -1 else Real.sqrt (d ^ 2 - depth ^ 2)
    else -1

/-- sensors.py L1506: the bearing. -/
noncomputable def acfrBearing (northings eastings : ℝ) : ℝ := atan2 eastings northings * 180 / Real.pi

end Oplab
