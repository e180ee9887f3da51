import Verif.Model.Offset

/-! Dead reckoning from the loaded measurements to the poses of the payload, /repo/src/auv_nav/process.py L770-1155 and
L1215-1260 (the calls of `interpolate_sensor_list`): the steps modelled in `Sync`, `Offset` and `Interpolate` put together. -/

namespace Oplab

/-- process.py L853-879: the synchronisation with the position of the DVL on the vehicle. -/
noncomputable def vehicleSync (dvl : V3 ℝ) (os : List (Attitude ℝ)) (vs : List (VelMeas ℝ)) (alts : List (ℝ × ℝ))
    (ds : List (DepthSample ℝ)) : SyncIn ℝ where
  rot := fun a v => bodyToInertial a.roll a.pitch a.yaw v
  arm := fun v w => correctLeverArm v w dvl
  os := os
  vs := vs
  alts := alts
  ds := ds

/-- process.py L953-974: one entry of `dead_reckoning_centre_list`; standard deviations are left out. -/
noncomputable def centreOf (origin dvl depth : V3 ℝ) (e : Synced ℝ × (ℝ × ℝ)) : Centre :=
  let c := toCentre origin dvl depth
    ⟨e.1.att.roll, e.1.att.pitch, e.1.att.yaw, e.2.1, e.2.2, e.1.alt, e.1.depth⟩
  { t := e.1.att.t, roll := c.roll, pitch := c.pitch, yaw := c.yaw, vx := e.1.v.x, vy := e.1.v.y, vz := e.1.v.z,
    altitude := c.altitude, northings := c.northings, eastings := c.eastings, depth := c.depth, std := fun _ => none }

/-- process.py L770-982, L1096-1119: `dead_reckoning_centre_list` after the shift onto the fixes `us`. -/
noncomputable def drCentre (origin dvl depth : V3 ℝ) (x : SyncIn ℝ) (us : List (TrackPt ℝ)) : Res (List Centre) := do
  let l ← syncRun x
  let cs := l.map (centreOf origin dvl depth)
  let tr ← alignTrack (cs.map fun c => ⟨c.t, c.northings, c.eastings⟩) us
  .ok (List.zipWith (fun c p => { c with northings := p.n, eastings := p.e }) cs tr)

/-- process.py L1222-1259 (`interpolate_sensor_list` with the dead reckoned list; a list with one measurement is left as it is, L1222): the poses of what is mounted at
`mount`, at the times of its measurements. -/
noncomputable def drPayload (m2ll : ℝ → ℝ → ℝ × ℝ) (origin dvl depth mount : V3 ℝ) (x : SyncIn ℝ)
    (us : List (TrackPt ℝ)) (times : List ℝ) : Res (List (ℝ × Option SensorPose)) := do
  let cs ← drCentre origin dvl depth x us
  interpolateSensorList m2ll origin mount times cs

end Oplab
