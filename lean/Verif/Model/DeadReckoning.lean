import Verif.Model.Interpolate

namespace Oplab

variable {K : Type} [Field K] [LinearOrder K]

/-- The fields of an orientation measurement read by `compute_angular_speeds`. -/
structure Attitude (K : Type) where
  t : K
  roll : K
  pitch : K
  yaw : K

/-- /repo/src/auv_nav/tools/dvl_level_arm.py L41-53: which two samples are differentiated. The last
branch leaves `o1 = o2 = None`, so that L55 raises `AttributeError`. -/
def angularSamples (o : List (Attitude K)) (i : Nat) : Res (Attitude K × Attitude K) :=
  if 1 ≤ i ∧ i + 1 < o.length then
    match o[i - 1]?, o[i + 1]? with
    | some a, some b => .ok (a, b)
    | _, _ => .error .indexError
  else if 1 < i ∧ i + 1 = o.length then
    match o[i - 1]?, o[i]? with
    | some a, some b => .ok (a, b)
    | _, _ => .error .indexError
  else if i = 0 then
    match o[i]?, o[i + 1]? with
    | some a, some b => .ok (a, b)
    | _, _ => .error .indexError
  else .error .attributeError

/-- dvl_level_arm.py L41-69 `compute_angular_speeds`. -/
def computeAngularSpeeds (o : List (Attitude K)) (i : Nat) : Res (V3 K) := do
  let (o1, o2) ← angularSamples o i
  let dt := o2.t - o1.t
  let droll := o2.roll - o1.roll
  let dpitch := o2.pitch - o1.pitch
  let dyaw := o2.yaw - o1.yaw
  let dyaw := if dyaw > 180 then dyaw - 360 else if dyaw < -180 then dyaw + 360 else dyaw
  if dt = 0 then .error .zeroDivision
  else .ok ⟨droll / dt, dpitch / dt, dyaw / dt⟩

/-- /repo/src/auv_nav/localisation/dead_reckoning.py L11-27 `dead_reckoning`. -/
def deadReckoning (t tp vn vnp ve vep np ep : K) : K × K :=
  (((t - tp) * (vnp + vn)) / 2 + np, ((t - tp) * (vep + ve)) / 2 + ep)

/-- One synchronised navigation sample: time and inertial velocities. -/
structure VelSample (K : Type) where
  t : K
  vn : K
  ve : K

/-- /repo/src/auv_nav/process.py L936-950, the loop body from index 1 on: positions of the samples after
`prev`, which is at `pos`. -/
def reckonFrom (prev : VelSample K) (pos : K × K) : List (VelSample K) → List (K × K)
  | [] => []
  | s :: ss =>
    let p := deadReckoning s.t prev.t s.vn prev.vn s.ve prev.ve pos.1 pos.2
    p :: reckonFrom s p ss

/-- process.py L933-950: the dead-reckoned track, starting at (0, 0). An empty list raises `IndexError`
at L934. -/
def reckonTrack : List (VelSample K) → Res (List (K × K))
  | [] => .error .indexError
  | s :: ss => .ok ((0, 0) :: reckonFrom s (0, 0) ss)

/-- The pose fields changed by the sensor-to-centre offset. -/
structure CentrePose where
  roll : ℝ
  pitch : ℝ
  yaw : ℝ
  northings : ℝ
  eastings : ℝ
  altitude : ℝ
  depth : ℝ

/-- process.py L953-974: from the position of the DVL (horizontal, altitude) and the depth sensor (depth) to
the vehicle origin. -/
noncomputable def toCentre (origin dvl depthSensor : V3 ℝ) (s : CentrePose) : CentrePose :=
  let o := bodyToInertial s.roll s.pitch s.yaw
    ⟨origin.x - dvl.x, origin.y - dvl.y, origin.z - dvl.z⟩
  let d := bodyToInertial s.roll s.pitch s.yaw
    ⟨origin.x - depthSensor.x, origin.y - depthSensor.y, origin.z - depthSensor.z⟩
  { s with
    northings := s.northings + o.x
    eastings := s.eastings + o.y
    altitude := s.altitude - o.z
    depth := s.depth + d.z }

end Oplab
