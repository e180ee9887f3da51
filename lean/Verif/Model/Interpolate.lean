import Mathlib.Algebra.Order.Field.Basic
import Verif.Model.Rotation

namespace Oplab

section scalar
variable {K : Type} [Field K] [LinearOrder K]

/-- /repo/src/auv_nav/tools/interpolate.py L20-27 `interpolate`. Exact field arithmetic
instead of floats. -/
def interpolate (xq xl xu yl yu : K) : K :=
  if xu = xl then yl else (yu - yl) / (xu - xl) * (xq - xl) + yl

/-- One entry of the altitude list, /repo/src/auv_nav/sensors.py L987-1012 (only the two fields
read here). -/
structure AltSample (K : Type) where
  t : K
  altitude : K

/-- The `while` loop of `interpolate_altitude`, interpolate.py L31-33: number of further steps taken
from the position whose remaining suffix is given. -/
def altSteps (q : K) : List (AltSample K) → Nat
  | [] => 0
  | d :: ds => if d.t < q then altSteps q ds + 1 else 0

/-- interpolate.py L30-40 `interpolate_altitude`; `i` starts at 1. -/
def interpolateAltitude (q : K) (data : List (AltSample K)) : Res K :=
  let i := 1 + altSteps q (data.drop 1)
  match data[i - 1]?, data[i]? with
  | some a, some b => .ok (interpolate q a.t b.t a.altitude b.altitude)
  | _, _ => .error .indexError

/-- The heading rule shared by interpolate.py L81-113 (`interpolate_dvl`) and
L396-424 (`interpolate_sensor_list`). `|x|` is Python `abs`. -/
def interpolateYaw (q t1 t2 yaw1 yaw2 : K) : K :=
  if |yaw2 - yaw1| > 180 then
    let y :=
      if yaw2 > yaw1 then interpolate q t1 t2 yaw1 (yaw2 - 360)
      else interpolate q t1 t2 (yaw1 - 360) yaw2
    if y < 0 then y + 360 else if y > 360 then y - 360 else y
  else interpolate q t1 t2 yaw1 yaw2

/-- The fields of `SyncedOrientationBodyVelocity` handled by `interpolate_dvl`. -/
structure DvlState (K : Type) where
  t : K
  vx : K
  vy : K
  vz : K
  roll : K
  pitch : K
  yaw : K

/-- interpolate.py L43-114 `interpolate_dvl`. -/
def interpolateDvl (q : K) (a b : DvlState K) : DvlState K :=
  { t := q
    vx := interpolate q a.t b.t a.vx b.vx
    vy := interpolate q a.t b.t a.vy b.vy
    vz := interpolate q a.t b.t a.vz b.vz
    roll := interpolate q a.t b.t a.roll b.roll
    pitch := interpolate q a.t b.t a.pitch b.pitch
    yaw := interpolateYaw q a.t b.t a.yaw b.yaw }

/-- The fields of `Camera` handled by `interpolate_camera` (interpolate.py L148-230). -/
structure CamPose (K : Type) where
  filename : String
  t : K
  northings : K
  eastings : K
  depth : K
  latitude : K
  longitude : K
  roll : K
  pitch : K
  yaw : K
  vx : K
  vy : K
  vz : K
  altitude : K

/-- interpolate.py L139-142: the value of `i` after the `for … break`; `i` is the index of the head
of the list argument. -/
def camIndex (q : K) : Nat → List (CamPose K) → Nat
  | i, [] => i
  | i, [_] => i
  | i, c :: d :: cs => if q ≤ c.t then i else camIndex q (i + 1) (d :: cs)

/-- interpolate.py L117-231 `interpolate_camera`. -/
def interpolateCamera (q : K) (cams : List (CamPose K)) (filename : String) : Res (CamPose K) :=
  let i := camIndex q 0 cams
  match cams[i]?, cams[if i > 1 then i - 1 else i]? with
  | some c2, some c1 =>
    .ok { filename := filename
          t := q
          northings := interpolate q c1.t c2.t c1.northings c2.northings
          eastings := interpolate q c1.t c2.t c1.eastings c2.eastings
          depth := interpolate q c1.t c2.t c1.depth c2.depth
          latitude := interpolate q c1.t c2.t c1.latitude c2.latitude
          longitude := interpolate q c1.t c2.t c1.longitude c2.longitude
          roll := interpolate q c1.t c2.t c1.roll c2.roll
          pitch := interpolate q c1.t c2.t c1.pitch c2.pitch
          yaw := interpolate q c1.t c2.t c1.yaw c2.yaw
          vx := interpolate q c1.t c2.t c1.vx c2.vx
          vy := interpolate q c1.t c2.t c1.vy c2.vy
          vz := interpolate q c1.t c2.t c1.vz c2.vz
          altitude := interpolate q c1.t c2.t c1.altitude c2.altitude }
  | _, _ => .error .indexError

/-- The USBL fields read by `interpolate_usbl`. -/
structure UsblPt (K : Type) where
  t : K
  northings : K
  eastings : K
  northingsStd : K
  eastingsStd : K
  depth : K

/-- interpolate.py L234-272 `interpolate_usbl`. -/
def interpolateUsbl (q : K) (a b : UsblPt K) : UsblPt K :=
  { t := q
    northings := interpolate q a.t b.t a.northings b.northings
    eastings := interpolate q a.t b.t a.eastings b.eastings
    northingsStd := interpolate q a.t b.t a.northingsStd b.northingsStd
    eastingsStd := interpolate q a.t b.t a.eastingsStd b.eastingsStd
    depth := interpolate q a.t b.t a.depth b.depth }

/-- interpolate.py L285-288 `interpolate_covariance`, one matrix entry. Division by zero
(numpy float: a warning and NaN; Python float: ZeroDivisionError) is an error here. -/
def interpolateCovariance (t t0 t1 c0 c1 : K) : Res K :=
  if t1 - t0 = 0 then .error .zeroDivision
  else
    let x := (t - t0) / (t1 - t0)
    .ok ((1 - x) * c0 + x * c1)

/-- interpolate.py L291-304 `interpolate_property` for given bracketing centre values. -/
def interpolateProperty (q t1 t2 : K) (p1 p2 : Option K) : Option K :=
  match p1, p2 with
  | some a, some b => some (interpolate q t1 t2 a b)
  | _, _ => none

end scalar

/-- The fields of a dead-reckoning / EKF centre state read by `interpolate_sensor_list`.
The twelve `*_std` properties (interpolate.py L506-541) are one function of their position. -/
structure Centre where
  t : ℝ
  roll : ℝ
  pitch : ℝ
  yaw : ℝ
  vx : ℝ
  vy : ℝ
  vz : ℝ
  altitude : ℝ
  northings : ℝ
  eastings : ℝ
  depth : ℝ
  std : Fin 12 → Option ℝ

/-- The pose fields written into a sensor entry by `interpolate_sensor_list`. -/
structure SensorPose where
  roll : ℝ
  pitch : ℝ
  yaw : ℝ
  vx : ℝ
  vy : ℝ
  vz : ℝ
  northings : ℝ
  eastings : ℝ
  altitude : ℝ
  depth : ℝ
  latlon : ℝ × ℝ
  std : Fin 12 → Option ℝ

/-- interpolate.py L382-541: the assignments for one sensor entry, between centre states `a`
(`_centre_list[j-1]`) and `b` (`_centre_list[j]`). `m2ll` is `metres_to_latlon` (geographiclib).
The covariance assignment (L543-550) is modelled separately by `interpolateCovariance`. -/
noncomputable def interpolateSensor (m2ll : ℝ → ℝ → ℝ × ℝ) (origin offsets : V3 ℝ)
    (q : ℝ) (a b : Centre) : SensorPose :=
  let roll := interpolate q a.t b.t a.roll b.roll
  let pitch := interpolate q a.t b.t a.pitch b.pitch
  let yaw := interpolateYaw q a.t b.t a.yaw b.yaw
  let off := bodyToInertial roll pitch yaw
    ⟨origin.x - offsets.x, origin.y - offsets.y, origin.z - offsets.z⟩
  let northings := interpolate q a.t b.t a.northings b.northings - off.x
  let eastings := interpolate q a.t b.t a.eastings b.eastings - off.y
  { roll := roll
    pitch := pitch
    yaw := yaw
    vx := interpolate q a.t b.t a.vx b.vx
    vy := interpolate q a.t b.t a.vy b.vy
    vz := interpolate q a.t b.t a.vz b.vz
    northings := northings
    eastings := eastings
    altitude := interpolate q a.t b.t a.altitude b.altitude + off.z
    depth := interpolate q a.t b.t a.depth b.depth - off.z
    latlon := m2ll eastings northings
    std := fun k => interpolateProperty q a.t b.t (a.std k) (b.std k) }

section loop
variable {K : Type} [LinearOrder K]

/-- interpolate.py L372-379, the `while` that advances `j`: number of steps taken from the position
whose remaining centre times are given (`d` is `_centre_list[j+1]`). -/
def advanceSteps (q sLast : K) : List K → Nat
  | [] => 0
  | [_] => 0
  | c :: d :: cs => if c < q then (if d > sLast then 0 else advanceSteps q sLast (d :: cs) + 1) else 0

/-- interpolate.py L352-379: for each retained sensor time the index `j` used for it; the list stops
where the code deletes the remaining entries. -/
def sensorLoop (ct : List K) (sLast : K) : Nat → List K → List (K × Nat)
  | _, [] => []
  | j, s :: ss =>
    if j + 1 ≥ ct.length then []
    else
      let j' := j + advanceSteps s sLast (ct.drop j)
      (s, j') :: sensorLoop ct sLast j' ss

end loop

/-- interpolate.py L307-564 `interpolate_sensor_list`. Input: the sensor timestamps in list order and
the centre list; output: the timestamps left in the list with the pose written into each, or `none`
for an entry left untouched (no-overlap branch, L321-328). -/
noncomputable def interpolateSensorList (m2ll : ℝ → ℝ → ℝ × ℝ) (origin offsets : V3 ℝ)
    (sensors : List ℝ) (centre : List Centre) : Res (List (ℝ × Option SensorPose)) :=
  match centre.head?, centre.getLast?, sensors.head?, sensors.getLast? with
  | some c0, some cl, some s0, some sl =>
    if s0 > cl.t ∨ sl < c0.t then .ok (sensors.map fun s => (s, none))
    else
      let kept := sensors.dropWhile fun s => s < c0.t
      (sensorLoop (centre.map Centre.t) sl 0 kept).mapM fun (s, j) => do
        let a ← pyGet centre ((j : Int) - 1)
        let b ← pyGet centre (j : Int)
        .ok (s, some (interpolateSensor m2ll origin offsets s a b))
  | _, _, _, _ => .error .indexError

end Oplab
