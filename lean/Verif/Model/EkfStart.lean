import Verif.Model.EkfPose

/-! How the extended Kalman filter starts from dead reckoning: /repo/src/auv_nav/process.py L853-879, L1299-1321 and
`build_state` of /repo/src/auv_nav/localisation/ekf.py. -/

namespace Oplab

/-- The first entry of dead reckoning at the DVL: position of the DVL, the depth that the depth sensor gives, attitude in
degrees, the velocity that the DVL gives and the turn rates in degrees per second. (process.py L802-929) -/
structure DrStart where
  t : ℝ
  north : ℝ
  east : ℝ
  depth : ℝ
  rpy : V3 ℝ
  raw : V3 ℝ
  rates : V3 ℝ
  altitude : ℝ

/-- process.py L1299-1308: the way from one place on the vehicle to the DVL. -/
def toDvl (dvl place : V3 ℝ) : V3 ℝ := ⟨dvl.x - place.x, dvl.y - place.y, dvl.z - place.z⟩

/-- process.py L1310-1319: the depth of the initial state. -/
noncomputable def ekfStartDepth (dvl depth : V3 ℝ) (d : DrStart) : ℝ :=
  d.depth + (bodyToInertial d.rpy.x d.rpy.y d.rpy.z (toDvl dvl depth)).z

/-- process.py L853-879, L1310-1319 with ekf.py L1058-1070: the initial state of the filter. -/
noncomputable def ekfStart (dvl depth : V3 ℝ) (d : DrStart) : KVec :=
  buildState d.north d.east (ekfStartDepth dvl depth d) d.rpy (correctLeverArm d.raw d.rates dvl)

/-- The same entry as a pose of dead reckoning at the DVL (its depth is that of the depth sensor). (process.py L802-929) -/
noncomputable def drPose (dvl : V3 ℝ) (P : KMat) (d : DrStart) : FilterPose :=
  { t := d.t, northings := d.north, eastings := d.east, depth := d.depth, roll := d.rpy.x, pitch := d.rpy.y, yaw := d.rpy.z,
    vx := (correctLeverArm d.raw d.rates dvl).x, vy := (correctLeverArm d.raw d.rates dvl).y,
    vz := (correctLeverArm d.raw d.rates dvl).z, vroll := 0, vpitch := 0, vyaw := 0, std := 0, cov := P,
    altitude := d.altitude, latlon := (0, 0) }

end Oplab
