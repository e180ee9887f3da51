import Verif.Model.SensorFrom
import Verif.Model.SensorJson

/-! # Positions of ROS messages

`Usbl.from_ros` of /repo/src/auv_nav/sensors.py in the worker of parse_rosbag.py, and the cameras of bags. Numbers are exact reals;
variances that are negative, of which numpy's square root is NaN, are not modelled apart (their root is 0 here). -/

namespace Oplab
open Real

/-- Messages that hold a position (sensors.py L1207, L1237, L1244, L1256). `pose` says whether the frame is "sparus2/modem" (L1237) and
holds the position and the entries 0, 7 and 14 of the covariance; `navSat` holds the status and the entries 0, 4 and 8. -/
inductive UsblMsg
  | pose (modem : Bool) (p variance : V3 ℝ) (stamp : ℝ)
  | navSat (status : ℤ) (lat lon : ℝ) (cov : V3 ℝ) (stamp : ℝ)
  | evologics (p : V3 ℝ) (stamp : ℝ)
  | other

/-- The settings of the mission, and the functions `metres_to_latlon` (latitude, longitude, eastings, northings) and `latlon_to_metres`
(latitude, longitude and reference), of an external library. (parse_rosbag.py L118-141, L162; latlon_wgs84.py) -/
structure UsblSetup where
  factor : ℝ
  offset : ℝ
  latRef : ℝ
  lonRef : ℝ
  tz : ℝ
  toLatLon : ℝ → ℝ → ℝ → ℝ → ℝ × ℝ
  toMetres : ℝ → ℝ → ℝ → ℝ → ℝ × ℝ

/-- sensors.py L1309-1331: the values of `fill_from_lat_lon_depth` written into the object, after latitude, longitude and depth were. -/
noncomputable def usblSetFill (c : UsblSetup) (s : UsblM ℝ) (lat lon depth : ℝ) : UsblM ℝ :=
  let m := c.toMetres lat lon c.latRef c.lonRef
  let r := usblFill c.factor c.offset lat lon depth m.1 m.2
  { s with lat := some lat, lon := some lon, depth := some depth, dist := some (-1), east := some r.eastings, north := some r.northings,
           eastStd := some r.eastingsStd, northStd := some r.northingsStd, depthStd := some r.depthStd, latStd := some r.latitudeStd,
           lonStd := some r.longitudeStd }

/-- sensors.py L1206-1272 `Usbl.from_ros`. -/
noncomputable def usblFromRos (c : UsblSetup) (s : UsblM ℝ) : UsblMsg → UsblM ℝ × Bool
  | .pose modem p variance stamp =>
    let r := usblPose c.toLatLon c.factor c.offset c.latRef c.lonRef p variance
    let s := { s with north := some r.northings, east := some r.eastings, depth := some r.depth, northStd := some r.northingsStd,
                      eastStd := some r.eastingsStd, depthStd := some r.depthStd, lat := some r.latitude, lon := some r.longitude,
                      latStd := some r.latitudeStd, lonStd := some r.longitudeStd }
    let s := if modem then usblSetFill c s p.x p.y (-p.z) else s
    ({ s with epoch := some (stamp - c.tz) }, true)
  | .navSat status lat lon cov stamp =>
    let s := if status = 0 then
        { usblSetFill c s lat lon 0 with eastStd := some cov.x, northStd := some cov.y, depthStd := some cov.z }
      else s
    ({ s with epoch := some (stamp - c.tz) }, true)
  | .evologics p stamp =>
    let ll := c.toLatLon c.latRef c.lonRef p.y p.x
    ({ s with north := some p.x, east := some p.y, depth := some p.z, lat := some ll.1, lon := some ll.2, epoch := some (stamp - c.tz) }, true)
  | .other => (s, false)

/-- sensors.py L1170-1175 `Usbl.clear`: depth, uncertainties and distance stay. -/
def usblClear (s : UsblM ℝ) : UsblM ℝ := { s with lat := none, lon := none, east := none, north := none, epoch := none }

/-- `Usbl` in the worker (parse_rosbag.py L136-147, L205-209). A record is what `_to_json` writes. -/
noncomputable def usblObject (c : UsblSetup) : RosObject (UsblM ℝ) UsblMsg (Json ℝ) :=
  ⟨usblFromRos c, UsblM.valid, UsblM.toJson, usblClear⟩

/-- sensors.py L1122-1165, parse_rosbag.py L136-147: the object before the first message. -/
def usblFresh : UsblM ℝ := { sensor := "rosbag" }

/-- parse_rosbag.py L204-225: the records of the positions. -/
noncomputable def usblBags (c : UsblSetup) (acfr : Bool) (bags : List (List UsblMsg)) : List (Json ℝ) :=
  rosWorker (usblObject c) acfr usblFresh bags

end Oplab
