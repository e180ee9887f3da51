import Verif.Model.DrRun
import Verif.Spec.StraightRun

/-! Dead reckoning on a straight run. -/

namespace Oplab.Spec
open Oplab

/-- Measurements without errors above a flat seafloor at depth `floor`. -/
structure TrueRecords (r : StraightRun) (floor : ℝ) (dvl depth : V3 ℝ) (os : List (Attitude ℝ)) (vs : List (VelMeas ℝ))
    (alts : List (ℝ × ℝ)) (ds : List (DepthSample ℝ)) : Prop where
  attitude : ∀ o ∈ os, (⟨o.roll, o.pitch, o.yaw⟩ : V3 ℝ) = r.rpy
  velocity : ∀ m ∈ vs, m.v = r.v
  altitude : ∀ a ∈ alts, a.2 = floor - (r.dvlAt a.1).z
  depth : ∀ d ∈ ds, d.depth = (r.mountAt dvl depth d.t).z

/-- Fixes without errors of a transponder mounted at `usbl`. -/
def TrueFixes (r : StraightRun) (dvl usbl : V3 ℝ) (us : List (TrackPt ℝ)) : Prop :=
  ∀ u ∈ us, u.n = (r.mountAt dvl usbl u.t).x ∧ u.e = (r.mountAt dvl usbl u.t).y

/-- The pose of the vehicle at the time of `c`, for its point `m`, but for a horizontal shift. -/
structure CentreAt (r : StraightRun) (floor : ℝ) (dvl m shift : V3 ℝ) (c : Centre) : Prop where
  attitude : (⟨c.roll, c.pitch, c.yaw⟩ : V3 ℝ) = r.rpy
  velocity : (⟨c.vx, c.vy, c.vz⟩ : V3 ℝ) = r.v
  north : c.northings = (r.mountAt dvl m c.t).x + shift.x
  east : c.eastings = (r.mountAt dvl m c.t).y + shift.y
  depth : c.depth = (r.mountAt dvl m c.t).z
  altitude : c.altitude = floor - (r.mountAt dvl m c.t).z

/-- The same for a sensor. -/
structure SensorAt (r : StraightRun) (floor : ℝ) (dvl m shift : V3 ℝ) (t : ℝ) (p : SensorPose) : Prop where
  attitude : (⟨p.roll, p.pitch, p.yaw⟩ : V3 ℝ) = r.rpy
  velocity : (⟨p.vx, p.vy, p.vz⟩ : V3 ℝ) = r.v
  north : p.northings = (r.mountAt dvl m t).x + shift.x
  east : p.eastings = (r.mountAt dvl m t).y + shift.y
  depth : p.depth = (r.mountAt dvl m t).z
  altitude : p.altitude = floor - (r.mountAt dvl m t).z

end Oplab.Spec
