import Verif.Model.SensorFrom
import Verif.Model.Parsers
import Verif.Model.NocLogs

/-! # Logs of vehicles

Files `/repo/src/auv_nav/parsers/parse_alr.py`, `parse_autosub.py`, `parse_eiva_navipac.py` and `parse_ntnu_dvl.py` with the `from_*` methods of
`/repo/src/auv_nav/sensors.py` they call. A number that may be NaN is an `Option`. -/

namespace Oplab
open Real

/-! ## Autosub Long Range -/

/-- A column of a table read by pandas, which gives every column of a file its own name. (parse_alr.py L67) -/
structure Column where
  name : String
  values : List (Option ℝ)

/-- `DataFrame.rename(columns={old: new})`. (parse_alr.py L71-75) -/
def renameColumn (old new : String) (cs : List Column) : List Column := cs.map fun c => if c.name = old then { c with name := new } else c

/-- parse_alr.py L70-75: which column holds the times. -/
def alrRename (cs : List Column) : List Column :=
  if cs.any (fun c => c.name = "corrected_timestamp") then renameColumn "corrected_timestamp" "epoch_timestamp" cs
  else if cs.any (fun c => c.name = "timestamp") then renameColumn "timestamp" "epoch_timestamp" cs
  else cs

/-- `mission_data[name][i]`: with two columns of the name pandas returns a table, which has no column `i`. (parse_alr.py L83-93) -/
def columnOf (cs : List Column) (name : String) : Res (List (Option ℝ)) :=
  match cs.filter fun c => c.name = name with
  | [c] => .ok c.values
  | _ => .error .keyError

/-- parse_alr.py L59-77: the table and the name of the column with the bottom lock. A Matlab file gives its table as it is. -/
def alrTable (extension : String) (cs : List Column) : Res (List Column × String) :=
  if extension = ".mat" then .ok (cs, "DVL_down_BT_is_good")
  else if extension = ".csv" then .ok (alrRename cs, "DVL_down_BT_valid")
  else .error .unboundLocal

/-- A row of the table, with the columns the parser uses. (parse_alr.py L83-175) -/
structure AlrRow where
  t : Option ℝ
  lock : Option ℝ
  v : V3 (Option ℝ)
  roll : Option ℝ
  pitch : Option ℝ
  heading : Option ℝ
  depth : Option ℝ
  altitude : Option ℝ
  latitude : Option ℝ
  longitude : Option ℝ

/-- What a parser records: values and standard deviations. (sensors.py L173-181, L679-683, L900-904, L1052-1056, L1294-1299) -/
inductive VehicleRecord where
  | velocity (v std : V3 ℝ)
  | orientation (roll pitch yaw : ℝ)
  | depth (d std : ℝ)
  | altitude (a std : ℝ)
  | position (latitude longitude : ℝ) (depth : Option ℝ)

/-- The categories of a parser. (parse_alr.py L80-175) -/
inductive VehicleCategory where
  | velocity
  | orientation
  | depth
  | altitude
  | usbl
deriving DecidableEq

/-- The settings of mission.yaml and vehicle.yaml; `yaw` is the mounting angle of the DVL, which is stored and not used.
(parse_alr.py L29-48, sensors.py L173-181) -/
structure VehicleStd where
  velocityFactor : ℝ
  velocityOffset : ℝ
  depthFactor : ℝ
  altitudeFactor : ℝ
  yaw : ℝ

/-- parse_alr.py L83-175: what a row gives for a category, `none` if it is skipped. -/
noncomputable def alrMeasure (s : VehicleStd) (c : VehicleCategory) (r : AlrRow) : Option VehicleRecord :=
  match c with
  | .velocity => if r.lock = some 1 then
      match r.v with
      | ⟨some vx, some vy, some vz⟩ => some (.velocity ⟨vx, vy, vz⟩
          ⟨velStd s.velocityFactor s.velocityOffset vx, velStd s.velocityFactor s.velocityOffset vy, velStd s.velocityFactor s.velocityOffset vz⟩)
      | _ => none
    else none
  | .orientation =>
    match r.roll, r.pitch, r.heading with
    | some a, some b, some c => some (.orientation (a * 180 / π) (b * 180 / π) (c * 180 / π))
    | _, _, _ => none
  | .depth => r.depth.map fun d => .depth d (d * s.depthFactor)
  | .altitude => if r.lock = some 1 then r.altitude.map fun a => .altitude a (a * s.altitudeFactor) else none
  | .usbl =>
    match r.latitude, r.longitude with
    | some la, some lo => some (.position la lo r.depth)
    | _, _ => none

/-- `t > previous` for numbers that may be NaN. (parse_alr.py L95) -/
def nanLess (prev t : Option ℝ) : Prop := ∃ a b, prev = some a ∧ t = some b ∧ a < b

open Classical in
/-- parse_alr.py L94-99, parse_autosub.py L62-67: a later record is appended, another replaces the last one. -/
noncomputable def appendLater {α : Type} (prev : Option ℝ) (out : List (Option ℝ × α)) : List (Option ℝ × α) → Res (List (Option ℝ × α))
  | [] => .ok out
  | (t, a) :: rest =>
    if nanLess prev t then appendLater t (out ++ [(t, a)]) rest
    else if out = [] then .error .indexError
    else appendLater t (out.dropLast ++ [(t, a)]) rest

/-- parse_alr.py L79-176: the records of a category. -/
noncomputable def parseAlr (s : VehicleStd) (c : VehicleCategory) (rows : List AlrRow) : Res (List (Option ℝ × VehicleRecord)) :=
  appendLater (some 0) [] (rows.filterMap fun r => (alrMeasure s c r).map fun m => (r.t, m))

/-! ## Autosub -/

/-- An entry of the four logs of a Matlab file. (sensors.py L183-191, L692-696, L912-916, L1064-1068) -/
inductive AutosubEntry where
  | adcp (north east down err : ℝ)
  | ins (roll pitch heading : ℝ)
  | depCtl (depth : ℝ)
  | adcpLog (altitude : ℝ)

/-- What an entry gives. (sensors.py L183-191, L692-696, L912-916, L1064-1068) -/
noncomputable def autosubMeasure (s : VehicleStd) : AutosubEntry → VehicleRecord
  | .adcp n e d err => .velocity ⟨-n * 0.001, -e * 0.001, -d * 0.001⟩ ⟨err * 0.001, err * 0.001, err * 0.001⟩
  | .ins a b c => .orientation (a * 180 / π) (b * 180 / π) (c * 180 / π)
  | .depCtl d => .depth d (d * s.depthFactor)
  | .adcpLog a => .altitude a (a * s.altitudeFactor)

/-- parse_autosub.py L57-100: the records of a category from the entries of its log. -/
noncomputable def parseAutosub (s : VehicleStd) (entries : List (Option ℝ × AutosubEntry)) : Res (List (Option ℝ × VehicleRecord)) :=
  appendLater (some 0) [] (entries.map fun e => (e.1, autosubMeasure s e.2))

/-! ## EIVA NaviPac -/

/-- The fields of an orientation object that change. (sensors.py L603-620) -/
structure EivaState where
  t : Option ℝ
  rpy : Option (V3 ℝ)

/-- A telegram: its time and the fields `pynmea2` finds, of which some may be missing (`none`) or no numbers (`some none`).
(sensors.py L651-677) -/
structure EivaMsg where
  t : ℝ
  roll : Option (Option ℝ)
  pitch : Option (Option ℝ)
  heading : Option (Option ℝ)

/-- sensors.py L630-639 `apply_offset`. -/
noncomputable def eivaOffset (yaw : ℝ) (f : V3 ℝ) : V3 ℝ :=
  let r := bodyToInertial 0 0 yaw f
  let z := if r.z > 360 then r.z - 360 else r.z
  ⟨r.x, r.y, if z < 0 then z + 360 else z⟩

open Classical in
/-- sensors.py L651-677 `Orientation.from_eiva_navipac`. -/
noncomputable def eivaOrientation (yaw : ℝ) (s : EivaState) (m : EivaMsg) : EivaState :=
  if m.t = 0 then { s with t := none }
  else
    match m.roll, m.pitch, m.heading with
    | some r, some p, some h =>
      match r, p, h with
      | some r, some p, some h => ⟨some m.t, some (eivaOffset yaw ⟨r, p, h⟩)⟩
      | _, _, _ => ⟨some m.t, none⟩
    | _, _, _ => { s with t := some m.t }

/-- parse_eiva_navipac.py L58-69: the orientations of the telegrams; one object is used for all; it has standard deviations if
mission.yaml has an offset for them (`std`, sensors.py L612-616, L622-628). -/
noncomputable def eivaOrientations (std : Bool) (yaw : ℝ) : EivaState → List EivaMsg → List (ℝ × V3 ℝ)
  | _, [] => []
  | s, m :: ms =>
    let s' := eivaOrientation yaw s m
    match s'.t, s'.rpy with
    | some t, some v => if std then (t, v) :: eivaOrientations std yaw s' ms else eivaOrientations std yaw s' ms
    | _, _ => eivaOrientations std yaw s' ms

/-- parse_eiva_navipac.py L82: `int(line[6:10]) == usbl_id` for a line that starts with "P  D". -/
def eivaUsblLine (label : BeaconLabel) (line : List Char) : Res Bool :=
  if line.take 4 = ['P', ' ', ' ', 'D'] then do
    let n ← blankInt (slice line 6 10)
    .ok (decide (label = .num n))
  else .ok false

/-- parse_eiva_navipac.py L72: the text `str(usbl_id)`. -/
def BeaconLabel.str : BeaconLabel → List Char
  | .text s => s
  | .num n => Nat.toDigits 10 n

/-! ## NTNU DVL -/

/-- sensors.py L1045-1050 `Altitude.from_ntnu_dvl`: altitude and standard deviation from the beams 1 and 3. -/
noncomputable def ntnuAltitude (factor alt1 alt3 : ℝ) : ℝ × ℝ :=
  let a := (alt1 + alt3) / 2
  (a, a * factor)

/-- sensors.py L226-230, L1039-1043: the date of the file's name and the time of day of the row. `machine` as in `naiveEpoch`. -/
def ntnuDvlTime (machine : ℚ) (file row : DateTime) : ℚ :=
  naiveEpoch machine ⟨file.year, file.month, file.day, row.hour, row.minute, row.second, row.us⟩

/-- A row: time of day, velocity and the altitudes of the beams. (parse_ntnu_dvl.py L20-75) -/
structure NtnuRow where
  time : DateTime
  v : V3 ℝ
  alt1 : ℝ
  alt3 : ℝ

/-- parse_ntnu_dvl.py L107-148: the records of the files, each with the date of its name. `none` as category stands for any other than
velocity and altitude, with which the program ends at the first file. -/
noncomputable def parseNtnuDvl (machine : ℚ) (s : VehicleStd) (altitude : Option Bool) : List (DateTime × List NtnuRow) → Res (List (ℚ × VehicleRecord))
  | [] => .ok []
  | (file, rows) :: rest =>
    match altitude with
    | none => .error .quit
    | some true => do
      let rs ← parseNtnuDvl machine s altitude rest
      .ok ((rows.map fun r => (ntnuDvlTime machine file r.time, VehicleRecord.altitude (ntnuAltitude s.altitudeFactor r.alt1 r.alt3).1
        (ntnuAltitude s.altitudeFactor r.alt1 r.alt3).2)) ++ rs)
    | some false => do
      let rs ← parseNtnuDvl machine s altitude rest
      .ok ((rows.filterMap fun r => (ntnuVelocity s.yaw r.v).map fun v => (ntnuDvlTime machine file r.time, VehicleRecord.velocity v
        ⟨velStd s.velocityFactor s.velocityOffset v.x, velStd s.velocityFactor s.velocityOffset v.y, velStd s.velocityFactor s.velocityOffset v.z⟩)) ++ rs)

end Oplab
