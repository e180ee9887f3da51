import Verif.Model.Ekf
import Verif.Model.Interpolate

/-!
Model of the poses that are made from the states of the filters: `EkfState.fromSyncedOrientationBodyVelocity`,
`toSyncedOrientationBodyVelocity`, `save_ekf_to_list` (/repo/src/auv_nav/localisation/ekf.py), `Camera.fromSyncedBodyVelocity`
(/repo/src/auv_nav/sensors.py) and the poses of the particle filter (/repo/src/auv_nav/localisation/pf.py).
-/

namespace Oplab
open Real

/-- The attributes of a `SyncedOrientationBodyVelocity` or `Camera` that come from a state of the filter; angles and angular
rates in degrees.  Standard deviations are by position in the state. (ekf.py L96-125, sensors.py L1849-1905) -/
structure FilterPose where
  t : ℝ
  northings : ℝ
  eastings : ℝ
  depth : ℝ
  roll : ℝ
  pitch : ℝ
  yaw : ℝ
  vx : ℝ
  vy : ℝ
  vz : ℝ
  vroll : ℝ
  vpitch : ℝ
  vyaw : ℝ
  std : Ix → ℝ
  cov : KMat
  altitude : ℝ
  latlon : ℝ × ℝ

/-- ekf.py L128-179: the standard deviations, those of angles and angular rates in degrees. -/
noncomputable def stateStd (P : KMat) (i : Ix) : ℝ :=
  if i = Ix.ROLL ∨ i = Ix.PITCH ∨ i = Ix.YAW ∨ i = Ix.VROLL ∨ i = Ix.VPITCH ∨ i = Ix.VYAW then 180 / π * stdOfVar (P i i)
  else stdOfVar (P i i)

/-- ekf.py L96-125 `toSyncedOrientationBodyVelocity`; altitude, latitude and longitude are not set there. -/
noncomputable def toSynced (t : ℝ) (s : KVec) (P : KMat) : FilterPose :=
  { t := t
    northings := s Ix.X
    eastings := s Ix.Y
    depth := s Ix.Z
    roll := s Ix.ROLL * 180 / π
    pitch := s Ix.PITCH * 180 / π
    yaw := s Ix.YAW * 180 / π
    vx := s Ix.VX
    vy := s Ix.VY
    vz := s Ix.VZ
    vroll := s Ix.VROLL * 180 / π
    vpitch := s Ix.VPITCH * 180 / π
    vyaw := s Ix.VYAW * 180 / π
    std := stateStd P
    cov := P
    altitude := 0
    latlon := (0, 0) }

/-- ekf.py L78-94 `fromSyncedOrientationBodyVelocity`: time, state and covariance. -/
noncomputable def fromSynced (b : FilterPose) : ℝ × KVec × KMat :=
  (b.t, ![b.northings, b.eastings, b.depth, b.roll * π / 180, b.pitch * π / 180, b.yaw * π / 180, b.vx, b.vy, b.vz,
    b.vroll * π / 180, b.vpitch * π / 180, b.vyaw * π / 180], b.cov)

/-- ekf.py L1082-1120 for one state: `alt` is the altitude interpolated between the poses of dead reckoning (`ekfAltLoop`),
`m2ll e n` is `metres_to_latlon` at the origin of the mission. -/
noncomputable def savedPose (m2ll : ℝ → ℝ → ℝ × ℝ) (origin dvl : V3 ℝ) (shift : Bool) (alt : ℝ) (t : ℝ) (s : KVec) (P : KMat) : FilterPose :=
  let b := toSynced t s P
  let off := bodyToInertial b.roll b.pitch b.yaw ⟨origin.x - dvl.x, origin.y - dvl.y, origin.z - dvl.z⟩
  let b := if shift then { b with northings := b.northings + off.x, eastings := b.eastings + off.y, depth := b.depth + off.z } else b
  { b with latlon := m2ll b.eastings b.northings, altitude := alt }

/-- sensors.py L1849-1905 `Camera.fromSyncedBodyVelocity`. -/
noncomputable def cameraPose (m2ll : ℝ → ℝ → ℝ × ℝ) (origin sensor : V3 ℝ) (b : FilterPose) : FilterPose :=
  let off := bodyToInertial b.roll b.pitch b.yaw ⟨origin.x - sensor.x, origin.y - sensor.y, origin.z - sensor.z⟩
  { b with
    altitude := b.altitude + off.z
    northings := b.northings - off.x
    eastings := b.eastings - off.y
    depth := b.depth - off.z
    latlon := m2ll b.eastings b.northings }

/-- process.py L955-974: the centre of the vehicle from a pose of dead reckoning at the DVL, whose depth is that of the depth
sensor. -/
noncomputable def centrePose (origin dvl depth : V3 ℝ) (b : FilterPose) : FilterPose :=
  let off := bodyToInertial b.roll b.pitch b.yaw ⟨origin.x - dvl.x, origin.y - dvl.y, origin.z - dvl.z⟩
  let zoff := bodyToInertial b.roll b.pitch b.yaw ⟨origin.x - depth.x, origin.y - depth.y, origin.z - depth.z⟩
  { b with
    northings := b.northings + off.x
    eastings := b.eastings + off.y
    altitude := b.altitude - off.z
    depth := b.depth + zoff.z }

/-- pf.py L329-345 `ParticleToSyncedOrientationBodyVelocity`: the poses of a trajectory; `x` has position, angles, speeds
and the altitude.  No standard deviations are set. -/
noncomputable def particlePose (t : ℝ) (x : Fin 10 → ℝ) : FilterPose :=
  { t := t
    northings := x 0
    eastings := x 1
    depth := x 2
    roll := x 3 * 180 / π
    pitch := x 4 * 180 / π
    yaw := x 5 * 180 / π
    vx := x 6
    vy := x 7
    vz := x 8
    vroll := 0
    vpitch := 0
    vyaw := 0
    std := 0
    cov := 0
    altitude := x 9
    latlon := (0, 0) }

/-- process.py L1187-1213: the centre of the vehicle from a pose of the particle filter. -/
noncomputable def pfCentrePose (m2ll : ℝ → ℝ → ℝ × ℝ) (origin dvl : V3 ℝ) (b : FilterPose) : FilterPose :=
  let off := bodyToInertial b.roll b.pitch b.yaw ⟨origin.x - dvl.x, origin.y - dvl.y, origin.z - dvl.z⟩
  { b with
    northings := b.northings + off.x
    eastings := b.eastings + off.y
    latlon := m2ll (b.eastings + off.y) (b.northings + off.x) }

end Oplab
