import Verif.Model.Rotation
import Verif.Model.Time

/-! # Sensor objects filled from messages

The `from_*` methods of /repo/src/auv_nav/sensors.py and the loops of parse_rosbag.py, parse_eiva_navipac.py, parse_ntnu_dvl.py and
parse_koyo21rov.py that call them. Numbers are exact reals. -/

namespace Oplab
open Real

/-! ## The worker of parse_rosbag.py -/

/-- A sensor object as the worker uses it: `fromRos` returns the new state and whether no exception was raised. -/
structure RosObject (S M R : Type) where
  fromRos : S → M → S × Bool
  valid : S → Bool
  toJson : S → R
  clear : S → S

variable {S M R : Type}

/-- parse_rosbag.py L65-79: the messages of one bag, up to its end or to where it cannot be read. The `except` without a class (L78) also
catches the exit of `Console.quit`. `acfr` is the output format: `export` (sensors.py L115-126) then calls `_to_acfr`, which no class
implements (L96-98). -/
def bagMessages (o : RosObject S M R) (acfr : Bool) : S → List M → S × List R
  | s, [] => (s, [])
  | s, m :: ms =>
    let r := o.fromRos s m
    if r.2 = false then (r.1, [])
    else if o.valid r.1 then
      if acfr then (r.1, [])
      else
        let q := bagMessages o acfr (o.clear r.1) ms
        (q.1, o.toJson r.1 :: q.2)
    else bagMessages o acfr r.1 ms

/-- parse_rosbag.py L35-80 `rosbag_topic_worker`: one object is used for all bags. -/
def rosWorker (o : RosObject S M R) (acfr : Bool) : S → List (List M) → List R
  | _, [] => []
  | s, b :: bs =>
    let r := bagMessages o acfr s b
    r.2 ++ rosWorker o acfr r.1 bs

/-! ## Body velocity -/

/-- sensors.py L129-150: the fields that change. The three components are always set together. -/
structure VelState where
  v : Option (V3 ℝ)
  std : Option (V3 ℝ)
  t : Option ℝ
  tDvl : Option ℝ

/-- sensors.py L137-144. -/
def VelState.init : VelState := ⟨none, none, none, none⟩

/-- sensors.py L152-159 `clear`: the time stays. -/
def VelState.clear (s : VelState) : VelState := { s with v := none, std := none, tDvl := none }

/-- sensors.py L161-168 `valid`. -/
def VelState.valid (s : VelState) : Bool := s.v.isSome && s.t.isSome && s.tDvl.isSome

/-- Messages that hold a velocity (sensors.py L278, L292, L332, L339). Speeds of the Teledyne DVL are in mm/s; `biA` and `wiA` say whether
the status is "A". -/
inductive VelMsg
  | cola2 (cov : V3 ℝ) (altitude : ℝ) (v : V3 ℝ) (stamp : ℝ)
  | teledyne (biA : Bool) (bi : V3 ℝ) (biErr : ℝ) (wiA : Bool) (wi : V3 ℝ) (wiErr : ℝ) (stamp : ℝ)
  | hnav (v : V3 ℝ) (quality stamp : ℝ)
  | other

/-- sensors.py L252-274 `BodyVelocity.apply_offset`. -/
noncomputable def VelState.applyOffset (yaw : ℝ) (s : VelState) : VelState :=
  if s.valid then { s with v := s.v.map (bodyToInertial 0 0 yaw), std := s.std.map (bodyToInertial 0 0 yaw) } else s

/-- sensors.py L341-343. -/
noncomputable def VelState.finish (yaw tz stamp : ℝ) (s : VelState) : VelState :=
  ({ s with t := some (stamp - tz), tDvl := some (stamp - tz) } : VelState).applyOffset yaw

/-- sensors.py L318-322, L323-327. -/
def mmValid (v : V3 ℝ) : Prop := v.x > -32768 ∧ v.y > -32768 ∧ v.z > -32768

noncomputable instance (v : V3 ℝ) : Decidable (mmValid v) := Classical.dec _

/-- sensors.py L299-301. -/
noncomputable def mmToM (v : V3 ℝ) : V3 ℝ := ⟨v.x * 0.001, v.y * 0.001, v.z * 0.001⟩

/-- sensors.py L276-343 `BodyVelocity.from_ros`. -/
noncomputable def velFromRos (yaw tz : ℝ) (s : VelState) : VelMsg → VelState × Bool
  | .cola2 cov altitude v stamp =>
    if cov.x ≤ 0 then (s, true)
    else if altitude < 0 then (s, true)
    else
      let s := if √(v.x ^ 2 + v.y ^ 2) < 2.5 then { s with v := some v, std := some ⟨√cov.x, √cov.y, √cov.z⟩ } else s
      (s.finish yaw tz stamp, true)
  | .teledyne biA bi biErr wiA wi wiErr stamp =>
    if biA = false ∧ wiA = false then (s, true)
    else
      let err := if biA then |biErr * 0.001| else |wiErr * 0.001|
      let s := { s with v := some (if biA then mmToM bi else mmToM wi), std := some ⟨err, err, err⟩ }
      let s := if ¬ (mmValid bi ∨ mmValid wi) then { s with v := none } else s
      (s.finish yaw tz stamp, true)
  | .hnav v quality stamp =>
    (({ s with v := some v, std := some ⟨quality, quality, quality⟩ } : VelState).finish yaw tz stamp, true)
  | .other => (s, false)

/-- A velocity record (sensors.py L431-454). -/
structure VelRecord where
  t : ℝ
  v : V3 ℝ
  std : V3 ℝ

/-- sensors.py L431-454 `_to_json`; only called on valid objects, whose fields are all set. -/
noncomputable def VelState.toJson (s : VelState) : VelRecord := ⟨s.t.getD 0, s.v.getD ⟨0, 0, 0⟩, s.std.getD ⟨0, 0, 0⟩⟩

/-- `BodyVelocity` in the worker. -/
noncomputable def velObject (yaw tz : ℝ) : RosObject VelState VelMsg VelRecord :=
  ⟨velFromRos yaw tz, VelState.valid, VelState.toJson, VelState.clear⟩

/-! ## Altitude -/

/-- sensors.py L988-1002: the fields that change. -/
structure AltState where
  altitude : Option ℝ
  std : Option ℝ
  t : Option ℝ
  altT : Option ℝ

/-- Messages that hold an altitude (sensors.py L1013, L1017, L1021, L1026, L1032); `isV` says whether the status is "V". -/
inductive AltMsg
  | cola2 (altitude stamp : ℝ)
  | range (r stamp : ℝ)
  | teledyne (isV : Bool) (r stamp : ℝ)
  | hnav (altitude stamp : ℝ)
  | other

/-- sensors.py L1034-1036. -/
noncomputable def altFinish (factor tz a stamp : ℝ) : AltState := ⟨some a, some (a * factor), some (stamp - tz), some (stamp - tz)⟩

/-- sensors.py L1011-1036 `Altitude.from_ros`. -/
noncomputable def altFromRos (factor tz : ℝ) (s : AltState) : AltMsg → AltState × Bool
  | .cola2 a stamp => if a < 0 then (s, true) else (altFinish factor tz a stamp, true)
  | .range a stamp => if a < 0 then (s, true) else (altFinish factor tz a stamp, true)
  | .teledyne isV a stamp => if isV then (s, true) else (altFinish factor tz a stamp, true)
  | .hnav a stamp => if a = 0 then ({ s with altitude := none }, true) else (altFinish factor tz a stamp, true)
  | .other => (s, false)

/-- `Altitude` in the worker: valid L1004-1009, clear L995-1002. Records hold time, altitude and standard deviation. -/
noncomputable def altObject (factor tz : ℝ) : RosObject AltState AltMsg (ℝ × ℝ × ℝ) where
  fromRos := altFromRos factor tz
  valid s := s.altitude.isSome && s.t.isSome && s.altT.isSome
  toJson s := (s.t.getD 0, s.altitude.getD 0, s.std.getD 0)
  clear s := { s with altitude := none, std := none, altT := none }

/-! ## Depth -/

/-- sensors.py L849-860: the fields that change. -/
structure DepthState where
  depth : Option ℝ
  std : Option ℝ
  t : Option ℝ
  depthT : Option ℝ

/-- Messages that hold a depth (sensors.py L870, L874, L877, L880). -/
inductive DepthMsg
  | pressure (p variance stamp : ℝ)
  | pose (z variance stamp : ℝ)
  | hnav (depth quality stamp : ℝ)
  | other

/-- sensors.py L872: density of sea water times gravity. -/
noncomputable def seaWeight : ℝ := 1030 * 9.80665

/-- sensors.py L882-885. -/
noncomputable def depthFinish (factor tz d std stamp : ℝ) : DepthState :=
  ⟨some d, some (if std = 0 then d * factor else std), some (stamp - tz), some (stamp - tz)⟩

/-- sensors.py L869-885 `Depth.from_ros`. -/
noncomputable def depthFromRos (factor tz : ℝ) (s : DepthState) : DepthMsg → DepthState × Bool
  | .pressure p variance stamp => (depthFinish factor tz (p / seaWeight) √(variance / seaWeight) stamp, true)
  | .pose z variance stamp => (depthFinish factor tz z √variance stamp, true)
  | .hnav d quality stamp => (depthFinish factor tz d (quality * 1.2) stamp, true)
  | .other => (s, false)

/-- `Depth` in the worker: valid L862-867, clear L857-860. Records hold time, depth and standard deviation. -/
noncomputable def depthObject (factor tz : ℝ) : RosObject DepthState DepthMsg (ℝ × ℝ × ℝ) where
  fromRos := depthFromRos factor tz
  valid s := s.depth.isSome && s.t.isSome && s.depthT.isSome
  toJson s := (s.t.getD 0, s.depth.getD 0, s.std.getD 0)
  clear s := { s with depth := none, std := none, depthT := none }

/-! ## Orientation -/

/-- sensors.py L635-638: only one turn is taken off or added. -/
noncomputable def wrapHeading (h : ℝ) : ℝ :=
  let h := if h > 360 then h - 360 else h
  if h < 0 then h + 360 else h

/-- sensors.py L630-638 `Orientation.apply_offset` on roll, pitch and heading. -/
noncomputable def orientOffset (yaw : ℝ) (a : V3 ℝ) : V3 ℝ :=
  let r := bodyToInertial 0 0 yaw a
  { r with z := wrapHeading r.z }

/-- sensors.py L640-649 `apply_std_offset`: roll and pitch are replaced; the third component goes to another field (`heading_std`), so that
`yaw_std` is unchanged. -/
noncomputable def orientStdOffset (yaw : ℝ) (std : V3 ℝ) : V3 ℝ :=
  let r := bodyToInertial 0 0 yaw std
  { r with z := std.z }

/-- sensors.py L603-615: the fields that change; roll, pitch, yaw are set together in `from_ros`. -/
structure OrientState where
  a : Option (V3 ℝ)
  std : Option (V3 ℝ)
  t : Option ℝ

/-- Messages that hold an orientation (sensors.py L724, L741, L751). `imu` holds the angles computed by `euler_from_quaternion`, in
radians, and the variances. -/
inductive OrientMsg
  | imu (a variance : V3 ℝ) (stamp : ℝ)
  | hnav (a : V3 ℝ) (quality stamp : ℝ)
  | other

/-- numpy `degrees` (sensors.py L735). -/
noncomputable def toDegrees (a : V3 ℝ) : V3 ℝ := ⟨a.x * (180 / π), a.y * (180 / π), a.z * (180 / π)⟩

/-- sensors.py L716-754 `Orientation.from_ros`. -/
noncomputable def orientFromRos (yaw tz : ℝ) (s : OrientState) : OrientMsg → OrientState × Bool
  | .imu a var stamp =>
    (⟨some (orientOffset yaw (toDegrees a)), some (orientStdOffset yaw (toDegrees ⟨√var.x, √var.y, √var.z⟩)), some (stamp - tz)⟩, true)
  | .hnav a q stamp => (⟨some (orientOffset yaw a), some (orientStdOffset yaw ⟨q, q, q⟩), some (stamp - tz)⟩, true)
  | .other => (s, false)

/-- `Orientation` in the worker: valid L622-628, clear L617-620. Records hold time, angles and standard deviations. -/
noncomputable def orientObject (yaw tz : ℝ) : RosObject OrientState OrientMsg (ℝ × V3 ℝ × V3 ℝ) where
  fromRos := orientFromRos yaw tz
  valid s := s.a.isSome && s.std.isSome && s.t.isSome
  toJson s := (s.t.getD 0, s.a.getD ⟨0, 0, 0⟩, s.std.getD ⟨0, 0, 0⟩)
  clear s := { s with a := none }

/-! ## USBL -/

/-- What the USBL objects hold. -/
structure UsblRecord where
  latitude : ℝ
  longitude : ℝ
  depth : ℝ
  northings : ℝ
  eastings : ℝ
  northingsStd : ℝ
  eastingsStd : ℝ
  depthStd : ℝ
  latitudeStd : ℝ
  longitudeStd : ℝ

/-- sensors.py L1309-1331 `fill_from_lat_lon_depth`; `dist` and `bearing` are what `latlon_to_metres` returns for the reference. -/
noncomputable def usblFill (factor offset lat lon depth dist bearing : ℝ) : UsblRecord :=
  let std := factor * depth + offset
  ⟨lat, lon, depth, cos (bearing * π / 180) * dist, sin (bearing * π / 180) * dist, std, std, std, std / 111.111e3,
    std / (111.111e3 * cos (lat * π / 180))⟩

/-- sensors.py L1333-1358 `from_nmea`. -/
noncomputable def usblNmea (factor offset lat lon altitude dist bearing : ℝ) : UsblRecord :=
  let depth := -altitude
  let std := factor * depth + offset
  ⟨lat, lon, depth, cos (bearing * π / 180) * dist, sin (bearing * π / 180) * dist, std, std, std, depth / 111.111e3,
    depth / 111.111e3 * cos (lat * π / 180)⟩

/-- sensors.py L1207-1235 `from_ros`, PoseWithCovarianceStamped (other frames than "sparus2/modem"). `m2ll lat lon e n` is
`metres_to_latlon`. -/
noncomputable def usblPose (m2ll : ℝ → ℝ → ℝ → ℝ → ℝ × ℝ) (factor offset latRef lonRef : ℝ) (p variance : V3 ℝ) : UsblRecord :=
  let std := factor * p.z + offset
  let ns := if √variance.x = 0 then std else √variance.x
  let es := if √variance.y = 0 then std else √variance.y
  let ds := if √variance.z = 0 then std else √variance.z
  let ll := m2ll latRef lonRef p.y p.x
  let lls := m2ll latRef lonRef es ns
  ⟨ll.1, ll.2, p.z, p.x, p.y, ns, es, ds, lls.1, lls.2⟩

/-- sensors.py L1244-1254 `from_ros`, NavSatFix with a fix. `cov` holds the entries 0, 4 and 8 of the covariance, in m². -/
noncomputable def usblNavSat (factor offset lat lon dist bearing : ℝ) (cov : V3 ℝ) : UsblRecord :=
  { usblFill factor offset lat lon 0 dist bearing with eastingsStd := cov.x, northingsStd := cov.y, depthStd := cov.z }

/-- parse_usbl_dump.py L112, L120-126: the standard deviations of latitude and longitude. -/
noncomputable def dumpStd (m2ll : ℝ → ℝ → ℝ → ℝ → ℝ × ℝ) (factor offset lat lon distance : ℝ) : ℝ × ℝ :=
  let std := factor * distance + offset
  let o := m2ll lat lon std std
  (lat - o.1, lon - o.2)

/-! ## INS messages -/

/-- sensors.py L521-534 `InertialVelocity.from_phins`: velocity and standard deviation (north, east, down) from the fields 2, 3, 4. -/
noncomputable def phinsVelocity (f : V3 ℝ) : V3 ℝ := ⟨f.y, f.x, -1 * f.z⟩

/-- sensors.py L529-534. -/
noncomputable def phinsVelocityStd (f : V3 ℝ) : V3 ℝ := ⟨f.y, f.x, -1 * f.z⟩

/-- sensors.py L207-222 `BodyVelocity.from_phins`: velocity from the fields 2, 3, 4. -/
noncomputable def phinsBody (yaw : ℝ) (f : V3 ℝ) : V3 ℝ :=
  let r := bodyToInertial 0 0 yaw f
  ⟨r.x, -1 * r.y, -1 * r.z⟩

/-- sensors.py L170-171 `get_std`. -/
noncomputable def velStd (factor offset v : ℝ) : ℝ := |v| * factor + offset

/-- sensors.py L232-250 `from_ntnu_dvl`: the velocity, if it is kept. -/
noncomputable def ntnuVelocity (yaw : ℝ) (f : V3 ℝ) : Option (V3 ℝ) :=
  let v := bodyToInertial 0 0 yaw f
  if (v.x > 32 ∨ v.x < -32) ∨ (v.y > 32 ∨ v.y < -32) ∨ (v.z > 32 ∨ v.z < -32) then none else some v

/-! ## Times without a time zone -/

/-- `datetime.timestamp()` of a date without a time zone, and `time.mktime`: the computer's own zone is used, here `machine` hours ahead of
universal time all the year. (sensors.py L229-230, L654-655, L890-891, L1042-1043, L1275-1276; parse_koyo21rov.py L85-100; none of them
uses the time zone or offset of the mission.) -/
def naiveEpoch (machine : ℚ) (c : DateTime) : ℚ := c.seconds + c.us / 1000000 - machine * 3600

/-! ## Lines of EIVA NaviPac files -/

/-- parse_eiva_navipac.py L72: the lines that hold the depth of a transponder. -/
def eivaDepthLine (label line : List Char) : Bool := line.take 14 = "D     ".toList ++ label ++ "  19  1".toList

/-! ## Images extracted from bags -/

/-- Python `min` of pairs (parse_rosbag.py L285): index of the first least value. -/
def firstMin : List ℚ → Option (ℚ × Nat)
  | [] => none
  | x :: xs =>
    match firstMin xs with
    | none => some (x, 0)
    | some (y, k) => if x ≤ y then some (x, 0) else some (y, k + 1)

/-- parse_rosbag.py L277-288: the pair of one image, if its partner is within the tolerance. -/
def extractedPair (time : List Char → ℚ) (files : List (List Char)) (f : List Char) : Option (List Char × List Char) :=
  match firstMin (files.map fun g => |time f - time g|) with
  | none => none
  | some p => if p.1 > 5 / 100 then none else some (f, files.getD p.2 [])

/-- parse_rosbag.py L245-250, L276-311: pairs of file names; `names` is the listing, `time` the number read from a name. Both cameras use
the same listing. -/
def extractedPairs (time : List Char → ℚ) (names : List (List Char)) : List (List Char × List Char) :=
  let files := names.filter fun n => ¬ (".txt".toList <:+: n) ∧ ¬ ("._".toList <:+: n)
  files.filterMap (extractedPair time files)

end Oplab
