import Verif.Model.Basic
import Mathlib.Algebra.Field.Rat
import Mathlib.Algebra.Order.Group.Unbundled.Abs

/-!
# Sensor measurements as JSON records

Models the export (`_to_json`, reached through `OutputFormat.export`) and import
(`from_json`) of the measurement classes of /repo/src/auv_nav/sensors.py and the
loop of /repo/src/auv_nav/process.py that sorts imported records into lists.

Simplifications common to the file:
* a JSON value is an abstract tree; writing it to a file and reading it back
  (`json.dump`, `json.load`) is the identity on such trees and is not modelled;
* numbers come from a field `K`; `float_or_none` (L42-46) is the identity;
* a field read by `from_json` must hold a number or `null`.  Python would store
  any other value unchecked; the model reports `TypeError` at once.
-/

namespace Oplab

/-- A JSON tree with numbers in `K`. -/
inductive Json (K : Type) where
  | null
  | num (x : K)
  | str (s : String)
  | arr (l : List (Json K))
  | obj (l : List (String × Json K))

namespace Json

variable {K : Type}

/-- Python `d[key]`. (every `from_json` of sensors.py, e.g. L367-400) -/
def key : Json K → String → Res (Json K)
  | obj l, k => match l.find? (fun e => e.1 == k) with
    | some e => .ok e.2
    | none => .error .keyError
  | _, _ => .error .typeError

/-- Python `l[i]` on a decoded JSON array. (every `from_json` of sensors.py, e.g. L367-400) -/
def idx : Json K → Nat → Res (Json K)
  | arr l, i => match l[i]? with
    | some a => .ok a
    | none => .error .indexError
  | _, _ => .error .typeError

/-- Python `key in d` for a decoded JSON object. (sensors.py L367-400, process.py L438-502) -/
def has : Json K → String → Bool
  | obj l, k => l.any (fun e => e.1 == k)
  | _, _ => false

/-- A number or `null` (see the file header). (sensors.py L367-400) -/
def asNum : Json K → Res (Option K)
  | null => .ok none
  | num x => .ok (some x)
  | _ => .error .typeError

/-- A string field. (sensors.py L1915-1921, process.py L438-502) -/
def asStr : Json K → Res String
  | str s => .ok s
  | _ => .error .typeError

/-- `float_or_none(val)`, sensors.py L42-46. -/
def ofOpt : Option K → Json K
  | none => null
  | some x => num x

/-- `json["data"][i][k]` as a number: the access pattern of every `from_json`. (e.g. sensors.py L367-400) -/
def at3 (j : Json K) (d : String) (i : Nat) (k : String) : Res (Option K) := do
  let a ← j.key d
  let b ← a.idx i
  let c ← b.key k
  c.asNum

/-- `json[k]` as a number. (e.g. sensors.py L367-400) -/
def at1 (j : Json K) (k : String) : Res (Option K) := do
  let a ← j.key k
  a.asNum

end Json

open Json

/-- `sensor_std`: the uncertainty model of the auv_nav configuration
(process.py L193-359).  `linear3` is the three-axis form accepted for velocities only. -/
inductive StdModel (K : Type) where
  | sensor
  | linear (offset factor : K)
  | linear3 (offset factor : V3 K)
  | other
  deriving Repr

section
variable {K : Type} [Field K]

/-- `offset + factor * value`; arithmetic on `None` raises `TypeError`. (e.g. sensors.py L367-400) -/
def linStd (o f : K) : Option K → Res (Option K)
  | some v => .ok (some (o + f * v))
  | none => .error .typeError

/-- Standard deviation chosen by the model: read from the record, recomputed or
`Console.quit`.  `fromFile` is only evaluated for the model "sensor". (e.g. sensors.py L367-400) -/
def stdOf (m : StdModel K) (fromFile : Res (Option K)) (v : Option K) : Res (Option K) :=
  match m with
  | .sensor => fromFile
  | .linear o f => linStd o f v
  | .linear3 _ _ => .error .keyError
  | .other => .error .quit

/-! ### BodyVelocity -/

/-- Data fields of `BodyVelocity`, sensors.py L129-152. -/
structure BodyVel (K : Type) where
  epoch : Option K := none
  epochDvl : Option K := none
  vx : Option K := none
  vy : Option K := none
  vz : Option K := none
  vxStd : Option K := none
  vyStd : Option K := none
  vzStd : Option K := none
  sensor : String := "unknown"

/-- `BodyVelocity.valid`, sensors.py L161-168. -/
def BodyVel.valid (s : BodyVel K) : Bool :=
  s.vx.isSome && s.vy.isSome && s.epoch.isSome && s.epochDvl.isSome

/-- `BodyVelocity._to_json`, sensors.py L431-455. -/
def BodyVel.toJson (s : BodyVel K) : Json K :=
  obj [("epoch_timestamp", ofOpt s.epoch),
       ("epoch_timestamp_dvl", ofOpt s.epochDvl),
       ("class", str "measurement"),
       ("sensor", str s.sensor),
       ("frame", str "body"),
       ("category", str "velocity"),
       ("data", arr [
          obj [("x_velocity", ofOpt s.vx), ("x_velocity_std", ofOpt s.vxStd)],
          obj [("y_velocity", ofOpt s.vy), ("y_velocity_std", ofOpt s.vyStd)],
          obj [("z_velocity", ofOpt s.vz), ("z_velocity_std", ofOpt s.vzStd)]])]

/-- `BodyVelocity.from_json`, sensors.py L367-400, applied to the object `s`: the
record's DVL time becomes `epoch_timestamp`; `epoch_timestamp_dvl` is not assigned. -/
def BodyVel.fromJson (s : BodyVel K) (j : Json K) (m : StdModel K) : Res (BodyVel K) := do
  let t ← j.at1 "epoch_timestamp_dvl"
  let x ← j.at3 "data" 0 "x_velocity"
  let y ← j.at3 "data" 1 "y_velocity"
  let z ← j.at3 "data" 2 "z_velocity"
  let (xs, ys, zs) ← match m with
    | .sensor => do
      let a ← j.at3 "data" 0 "x_velocity_std"
      let b ← j.at3 "data" 1 "y_velocity_std"
      let c ← j.at3 "data" 2 "z_velocity_std"
      pure (a, b, c)
    | .linear3 o f => do
      let a ← linStd o.x f.x x
      let b ← linStd o.y f.y y
      let c ← linStd o.z f.z z
      pure (a, b, c)
    | .linear o f => do
      let a ← linStd o f x
      let b ← linStd o f y
      let c ← linStd o f z
      pure (a, b, c)
    | .other => .error .quit
  pure { s with epoch := t, vx := x, vy := y, vz := z, vxStd := xs, vyStd := ys, vzStd := zs }

/-! ### InertialVelocity -/

/-- Exported fields of `InertialVelocity`, sensors.py L485-512. -/
structure InertialVel (K : Type) where
  epoch : Option K := none
  vn : Option K := none
  ve : Option K := none
  vd : Option K := none
  vnStd : Option K := none
  veStd : Option K := none
  vdStd : Option K := none
  sensor : String := "unknown"

/-- `InertialVelocity.valid`, sensors.py L514-519. -/
def InertialVel.valid (s : InertialVel K) : Bool := s.vn.isSome && s.epoch.isSome

/-- `InertialVelocity._to_json`, sensors.py L545-567.  (`float(epoch_timestamp)` cannot
fail on a valid measurement.) -/
def InertialVel.toJson (s : InertialVel K) : Json K :=
  obj [("epoch_timestamp", ofOpt s.epoch),
       ("class", str "measurement"),
       ("sensor", str s.sensor),
       ("frame", str "inertial"),
       ("category", str "velocity"),
       ("data", arr [
          obj [("north_velocity", ofOpt s.vn), ("north_velocity_std", ofOpt s.vnStd)],
          obj [("east_velocity", ofOpt s.ve), ("east_velocity_std", ofOpt s.veStd)],
          obj [("down_velocity", ofOpt s.vd), ("down_velocity_std", ofOpt s.vdStd)]])]

/-- `InertialVelocity.from_json`, sensors.py L536-543. -/
def InertialVel.fromJson (s : InertialVel K) (j : Json K) : Res (InertialVel K) := do
  let t ← j.at1 "epoch_timestamp"
  let n ← j.at3 "data" 0 "north_velocity"
  let e ← j.at3 "data" 1 "east_velocity"
  let d ← j.at3 "data" 2 "down_velocity"
  let ns ← j.at3 "data" 0 "north_velocity_std"
  let es ← j.at3 "data" 1 "east_velocity_std"
  let ds ← j.at3 "data" 2 "down_velocity_std"
  pure { s with epoch := t, vn := n, ve := e, vd := d, vnStd := ns, veStd := es, vdStd := ds }

/-! ### Orientation -/

/-- Data fields of `Orientation`, sensors.py L602-621. -/
structure Orient (K : Type) where
  epoch : Option K := none
  roll : Option K := none
  pitch : Option K := none
  yaw : Option K := none
  rollStd : Option K := none
  pitchStd : Option K := none
  yawStd : Option K := none
  sensor : String := "unknown"

/-- `Orientation.valid`, sensors.py L622-628. -/
def Orient.valid (s : Orient K) : Bool :=
  s.roll.isSome && s.rollStd.isSome && s.yaw.isSome && s.epoch.isSome

/-- `Orientation._to_json`, sensors.py L803-825. -/
def Orient.toJson (s : Orient K) : Json K :=
  obj [("epoch_timestamp", ofOpt s.epoch),
       ("class", str "measurement"),
       ("sensor", str s.sensor),
       ("frame", str "body"),
       ("category", str "orientation"),
       ("data", arr [
          obj [("heading", ofOpt s.yaw), ("heading_std", ofOpt s.yawStd)],
          obj [("roll", ofOpt s.roll), ("roll_std", ofOpt s.rollStd)],
          obj [("pitch", ofOpt s.pitch), ("pitch_std", ofOpt s.pitchStd)]])]

/-- `Orientation.from_json`, sensors.py L756-772. -/
def Orient.fromJson (s : Orient K) (j : Json K) (m : StdModel K) : Res (Orient K) := do
  let t ← j.at1 "epoch_timestamp"
  let r ← j.at3 "data" 1 "roll"
  let p ← j.at3 "data" 2 "pitch"
  let y ← j.at3 "data" 0 "heading"
  let rs ← stdOf m (j.at3 "data" 1 "roll_std") r
  let ps ← stdOf m (j.at3 "data" 2 "pitch_std") p
  let ys ← stdOf m (j.at3 "data" 0 "heading_std") y
  pure { s with epoch := t, roll := r, pitch := p, yaw := y,
                rollStd := rs, pitchStd := ps, yawStd := ys }

/-! ### Depth -/

/-- Data fields of `Depth`, sensors.py L848-860. -/
structure DepthM (K : Type) where
  epoch : Option K := none
  depthTime : Option K := none
  depth : Option K := none
  depthStd : Option K := none
  sensor : String := "unknown"

/-- `Depth.valid`, sensors.py L862-867. -/
def DepthM.valid (s : DepthM K) : Bool :=
  s.depth.isSome && s.epoch.isSome && s.depthTime.isSome

/-- `Depth._to_json`, sensors.py L965-980. -/
def DepthM.toJson (s : DepthM K) : Json K :=
  obj [("epoch_timestamp", ofOpt s.epoch),
       ("epoch_timestamp_depth", ofOpt s.depthTime),
       ("class", str "measurement"),
       ("sensor", str s.sensor),
       ("frame", str "inertial"),
       ("category", str "depth"),
       ("data", arr [obj [("depth", ofOpt s.depth), ("depth_std", ofOpt s.depthStd)]])]

/-- `Depth.from_json`, sensors.py L940-950. -/
def DepthM.fromJson (s : DepthM K) (j : Json K) (m : StdModel K) : Res (DepthM K) := do
  let t ← j.at1 "epoch_timestamp"
  let dt ← j.at1 "epoch_timestamp_depth"
  let d ← j.at3 "data" 0 "depth"
  let ds ← stdOf m (j.at3 "data" 0 "depth_std") d
  pure { s with epoch := t, depthTime := dt, depth := d, depthStd := ds }

/-! ### Altitude -/

/-- Data fields of `Altitude`, sensors.py L987-1003 (`seafloor_depth` is never exported). -/
structure AltM (K : Type) where
  epoch : Option K := none
  altTime : Option K := none
  alt : Option K := none
  altStd : Option K := none
  soundVel : Option K := none
  soundCorr : Option K := none
  sensor : String := "unknown"

/-- `Altitude.valid`, sensors.py L1004-1010. -/
def AltM.valid (s : AltM K) : Bool := s.alt.isSome && s.epoch.isSome && s.altTime.isSome

/-- `Altitude._to_json`, sensors.py L1089-1111. -/
def AltM.toJson (s : AltM K) : Json K :=
  obj [("epoch_timestamp", ofOpt s.epoch),
       ("epoch_timestamp_dvl", ofOpt s.altTime),
       ("class", str "measurement"),
       ("sensor", str s.sensor),
       ("frame", str "body"),
       ("category", str "altitude"),
       ("data", arr [
          obj [("altitude", ofOpt s.alt), ("altitude_std", ofOpt s.altStd)],
          obj [("sound_velocity", ofOpt s.soundVel),
               ("sound_velocity_correction", ofOpt s.soundCorr)]])]

/-- `Altitude.from_json`, sensors.py L1078-1081: only three of the exported fields. -/
def AltM.fromJson (s : AltM K) (j : Json K) : Res (AltM K) := do
  let t ← j.at1 "epoch_timestamp"
  let a ← j.at3 "data" 0 "altitude"
  let as' ← j.at3 "data" 0 "altitude_std"
  pure { s with epoch := t, alt := a, altStd := as' }

/-! ### USBL -/

/-- Exported fields of `Usbl`, sensors.py L1116-1160. -/
structure UsblM (K : Type) where
  epoch : Option K := none
  lat : Option K := none
  lon : Option K := none
  latStd : Option K := none
  lonStd : Option K := none
  north : Option K := none
  east : Option K := none
  northStd : Option K := none
  eastStd : Option K := none
  depth : Option K := none
  depthStd : Option K := none
  dist : Option K := none
  latShip : Option K := none
  lonShip : Option K := none
  northShip : Option K := none
  eastShip : Option K := none
  headShip : Option K := none
  sensor : String := "unknown"

/-- `Usbl.valid`, sensors.py L1177-1184. -/
def UsblM.valid (s : UsblM K) : Bool :=
  s.lat.isSome && s.lon.isSome && s.east.isSome && s.north.isSome && s.epoch.isSome

/-- `Usbl._to_json`, sensors.py L1452-1495. -/
def UsblM.toJson (s : UsblM K) : Json K :=
  obj [("epoch_timestamp", ofOpt s.epoch),
       ("class", str "measurement"),
       ("sensor", str s.sensor),
       ("frame", str "inertial"),
       ("category", str "usbl"),
       ("data_ship", arr [
          obj [("latitude", ofOpt s.latShip), ("longitude", ofOpt s.lonShip)],
          obj [("northings", ofOpt s.northShip), ("eastings", ofOpt s.eastShip)],
          obj [("heading", ofOpt s.headShip)]]),
       ("data_target", arr [
          obj [("latitude", ofOpt s.lat), ("latitude_std", ofOpt s.latStd)],
          obj [("longitude", ofOpt s.lon), ("longitude_std", ofOpt s.lonStd)],
          obj [("northings", ofOpt s.north), ("northings_std", ofOpt s.northStd)],
          obj [("eastings", ofOpt s.east), ("eastings_std", ofOpt s.eastStd)],
          obj [("depth", ofOpt s.depth), ("depth_std", ofOpt s.depthStd)],
          obj [("distance_to_ship", ofOpt s.dist)]])]

/-- One statement of the `try` block of `Usbl.from_json` (L1400-1407): a failed read leaves
the field as it was, and every statement after it is skipped. -/
def tryAssign (st : UsblM K × Bool) (r : Res (Option K))
    (set : UsblM K → Option K → UsblM K) : UsblM K × Bool :=
  if st.2 then
    match r with
    | .ok v => (set st.1 v, true)
    | .error _ => (st.1, false)
  else st

/-- `Usbl.from_json`, sensors.py L1360-1407.  The linear model's latitude and longitude
uncertainties come from the external geodesic library: `llStd` stands for lines 1384-1395
(given latitude, longitude, depth, distance, offset, factor). -/
def UsblM.fromJson (llStd : Option K → Option K → Option K → Option K → K → K →
      Res (Option K × Option K))
    (s : UsblM K) (j : Json K) (m : StdModel K) : Res (UsblM K) := do
  let t ← j.at1 "epoch_timestamp"
  let lat ← j.at3 "data_target" 0 "latitude"
  let lon ← j.at3 "data_target" 1 "longitude"
  let n ← j.at3 "data_target" 2 "northings"
  let e ← j.at3 "data_target" 3 "eastings"
  let d ← j.at3 "data_target" 4 "depth"
  let ds ← j.at3 "data_target" 4 "depth_std"
  let dist ← j.at3 "data_target" 5 "distance_to_ship"
  let (lats, lons, ns, es) ← match m with
    | .sensor => do
      let a ← j.at3 "data_target" 0 "latitude_std"
      let b ← j.at3 "data_target" 1 "longitude_std"
      let c ← j.at3 "data_target" 2 "northings_std"
      let d ← j.at3 "data_target" 3 "eastings_std"
      pure (a, b, c, d)
    | .linear o f => do
      let c ← linStd o f dist
      let d' ← linStd o f dist
      let (a, b) ← llStd lat lon d dist o f
      pure (a, b, c, d')
    | .linear3 _ _ => .error .keyError
    | .other => .error .quit
  let s1 : UsblM K :=
    { s with epoch := t, lat := lat, lon := lon, north := n, east := e, depth := d,
             depthStd := ds, dist := dist, latStd := lats, lonStd := lons,
             northStd := ns, eastStd := es }
  let st := tryAssign (s1, true) (j.at3 "data_ship" 0 "latitude") fun s v => { s with latShip := v }
  let st := tryAssign st (j.at3 "data_ship" 0 "longitude") fun s v => { s with lonShip := v }
  let st := tryAssign st (j.at3 "data_ship" 1 "northings") fun s v => { s with northShip := v }
  let st := tryAssign st (j.at3 "data_ship" 1 "eastings") fun s v => { s with eastShip := v }
  let st := tryAssign st (j.at3 "data_ship" 2 "heading") fun s v => { s with headShip := v }
  pure st.1

/-! ### Tide -/

/-- Data fields of `Tide`, sensors.py L1531-1541. -/
structure TideM (K : Type) where
  epoch : Option K := none
  height : Option K := none
  heightStd : Option K := none
  sensor : String := "unknown"

/-- `Tide.valid`, sensors.py L1543-1544. -/
def TideM.valid (s : TideM K) : Bool := s.height.isSome && s.epoch.isSome

/-- `Tide._to_json`, sensors.py L1572-1586. -/
def TideM.toJson (s : TideM K) : Json K :=
  obj [("epoch_timestamp", ofOpt s.epoch),
       ("class", str "measurement"),
       ("sensor", str s.sensor),
       ("frame", str "inertial"),
       ("category", str "tide"),
       ("data", arr [obj [("height", ofOpt s.height), ("height_std", ofOpt s.heightStd)]])]

/-- `Tide.from_json`, sensors.py L1546-1557. -/
def TideM.fromJson (s : TideM K) (j : Json K) (m : StdModel K) : Res (TideM K) := do
  let t ← j.at1 "epoch_timestamp"
  let h ← j.at3 "data" 0 "tide"
  let hs ← stdOf m (j.at3 "data" 0 "tide_std") h
  pure { s with epoch := t, height := h, heightStd := hs }

/-! ### Cameras -/

/-- Exported fields of `Camera`, sensors.py L1835-1845. -/
structure CamM (K : Type) where
  epoch : Option K := none
  filename : String := ""
  sensor : String := "unknown"

/-- `Camera.valid`, sensors.py L1846-1847. -/
def CamM.valid (s : CamM K) : Bool := s.filename != "" && s.epoch.isSome

/-- `Camera._to_json`, sensors.py L2054-2068.  Only called on valid cameras. -/
def CamM.toJson (s : CamM K) : Json K :=
  obj [("epoch_timestamp", ofOpt s.epoch),
       ("class", str "measurement"),
       ("sensor", str s.sensor),
       ("frame", str "body"),
       ("category", str "image"),
       ("camera1", arr [obj [("epoch_timestamp", ofOpt s.epoch), ("filename", str s.filename)]])]

/-- `StereoCamera._to_json`, sensors.py L2102-2122. -/
def stereoToJson (l r : CamM K) (sensor : String) : Json K :=
  obj [("epoch_timestamp", ofOpt l.epoch),
       ("class", str "measurement"),
       ("sensor", str sensor),
       ("frame", str "body"),
       ("category", str "image"),
       ("camera1", arr [obj [("epoch_timestamp", ofOpt l.epoch), ("filename", str l.filename)]]),
       ("camera2", arr [obj [("epoch_timestamp", ofOpt r.epoch), ("filename", str r.filename)]])]

/-- `Camera.from_json`, sensors.py L1915-1921. -/
def CamM.fromJson (s : CamM K) (j : Json K) (cam : String) : Res (CamM K) :=
  if j.has cam then do
    let t ← j.at3 cam 0 "epoch_timestamp"
    let a ← j.key cam
    let b ← a.idx 0
    let c ← b.key "filename"
    let f ← c.asStr
    pure { s with epoch := t, filename := f }
  else if j.has "filename" then do
    let t ← j.at1 "epoch_timestamp"
    let c ← j.key "filename"
    let f ← c.asStr
    pure { s with epoch := t, filename := f }
  else pure s

/-- `OutputFormat.export(OutputFormat.OPLAB)`, sensors.py L115-127: the record of a valid
measurement, nothing for an invalid one. -/
def exportOplab {α : Type _} (valid : α → Bool) (toJson : α → Json K) (s : α) :
    Option (Json K) :=
  if valid s then some (toJson s) else none

end

/-! ### Sorting records into measurement lists -/

section
variable {K : Type} [Field K] [LinearOrder K]

/-- Python `sub in s` for strings. (process.py L438-502) -/
def strIn (sub s : String) : Bool :=
  (s.toList.tails).any (fun t => sub.toList.isPrefixOf t)

/-- The measurement lists filled by process.py L438-502. -/
structure Loaded (K : Type) where
  body : List (BodyVel K) := []
  inertial : List (InertialVel K) := []
  orient : List (Orient K) := []
  depth : List (DepthM K) := []
  alt : List (AltM K) := []
  usbl : List (UsblM K) := []
  cam1 : List (CamM K) := []
  cam2 : List (CamM K) := []
  cam3 : List (CamM K) := []

/-- `sensors_std` of the configuration, one model per sensor, process.py L193-359. -/
structure StdCfg (K : Type) where
  speed : StdModel K
  orientation : StdModel K
  positionZ : StdModel K
  positionXY : StdModel K

/-- A required number: comparing `None` raises `TypeError`. (process.py L444-473) -/
def reqNum : Option K → Res K
  | some x => .ok x
  | none => .error .typeError

/-- The "velocity" branch, process.py L444-473. -/
def loadVelocity (cfg : StdCfg K) (acc : Loaded K) (j : Json K) (t : K) (frame : String) :
    Res (Loaded K) := do
  let acc1 ←
    if strIn "body" frame && j.has "epoch_timestamp_dvl" then do
      let td ← (j.at1 "epoch_timestamp_dvl")
      let td ← reqNum td
      if |t - td| < 1 then do
        let v ← BodyVel.fromJson {} j cfg.speed
        pure { acc with body := acc.body ++ [v] }
      else pure acc
    else pure acc
  if strIn "inertial" frame then do
    let v ← InertialVel.fromJson {} j
    pure { acc1 with inertial := acc1.inertial ++ [v] }
  else pure acc1

/-- One iteration of the loop of process.py L438-502.  `none` is a JSON `null` entry;
`nCams` is the number of cameras of the mission; `llStd` is as in `UsblM.fromJson`.
Console messages are left out. -/
def loadStep (llStd : Option K → Option K → Option K → Option K → K → K →
      Res (Option K × Option K))
    (cfg : StdCfg K) (start finish : K) (nCams : Nat) (acc : Loaded K) (j : Json K) :
    Res (Loaded K) :=
  match j with
  | .null => pure acc
  | j => do
    let t ← j.at1 "epoch_timestamp"
    let t ← reqNum t
    if t ≥ start ∧ t ≤ finish then do
      let c ← j.key "category"
      let cat ← c.asStr
      let acc ← if strIn "velocity" cat then do
          let f ← j.key "frame"
          let frame ← f.asStr
          loadVelocity cfg acc j t frame
        else pure acc
      let acc ← if strIn "orientation" cat then do
          let o ← Orient.fromJson {} j cfg.orientation
          pure { acc with orient := acc.orient ++ [o] }
        else pure acc
      let acc ← if strIn "depth" cat then do
          let o ← DepthM.fromJson {} j cfg.positionZ
          pure { acc with depth := acc.depth ++ [o] }
        else pure acc
      let acc ← if strIn "altitude" cat then do
          let o ← AltM.fromJson {} j
          pure { acc with alt := acc.alt ++ [o] }
        else pure acc
      let acc ← if strIn "usbl" cat then do
          let o ← UsblM.fromJson llStd {} j cfg.positionXY
          pure { acc with usbl := acc.usbl ++ [o] }
        else pure acc
      let acc ← if strIn "image" cat then do
          let o ← CamM.fromJson {} j "camera1"
          let acc : Loaded K := { acc with cam1 := acc.cam1 ++ [o] }
          if nCams > 1 ∧ j.has "camera2" then do
            let o ← CamM.fromJson {} j "camera2"
            pure { acc with cam2 := acc.cam2 ++ [o] }
          else pure acc
        else pure acc
      if strIn "laser" cat then do
        let o ← CamM.fromJson {} j "camera1"
        pure { acc with cam3 := acc.cam3 ++ [o] }
      else pure acc
    else pure acc

/-- The whole loop, process.py L438-502. -/
def loadAll (llStd : Option K → Option K → Option K → Option K → K → K →
      Res (Option K × Option K))
    (cfg : StdCfg K) (start finish : K) (nCams : Nat) (js : List (Json K)) : Res (Loaded K) :=
  js.foldlM (loadStep llStd cfg start finish nCams) {}

end

end Oplab
