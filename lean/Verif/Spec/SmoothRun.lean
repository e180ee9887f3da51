import Verif.Model.DrRun
import Verif.Spec.Geometry
import Verif.Spec.Sync
import Mathlib.Analysis.Calculus.Deriv.Basic

/-!
# Any motion with bounded accelerations

A vehicle that turns and changes its speed as it likes, and sensors without errors that sample it now and then.
-/

namespace Oplab.Spec
open Oplab

/-- `pos` is where the DVL is (north, east, down), `rpy` the attitude (degrees), `body` the velocity of the DVL along the
vehicle's axes. -/
structure Journey where
  pos : ℝ → V3 ℝ
  rpy : ℝ → V3 ℝ
  body : ℝ → V3 ℝ

/-- A vector along the vehicle's axes at time `t` as north, east, down. -/
noncomputable def Journey.turned (m : Journey) (t : ℝ) (u : V3 ℝ) : V3 ℝ :=
  rotZ (rad (m.rpy t).z) (rotY (rad (m.rpy t).y) (rotX (rad (m.rpy t).x) u))

/-- The velocity of the DVL as north, east, down. -/
noncomputable def Journey.vel (m : Journey) (t : ℝ) : V3 ℝ := m.turned t (m.body t)

/-- Where a point of the vehicle is, mounted at `p` from the DVL. -/
noncomputable def Journey.mountAt (m : Journey) (p : V3 ℝ) (t : ℝ) : V3 ℝ := add (m.pos t) (m.turned t p)

/-- No component changes faster than `L` per second. -/
def NoFaster (L : ℝ) (f : ℝ → V3 ℝ) : Prop :=
  ∀ s t, |(f s).x - (f t).x| ≤ L * |s - t| ∧ |(f s).y - (f t).y| ≤ L * |s - t| ∧ |(f s).z - (f t).z| ≤ L * |s - t|

/-- The velocity is the rate of change of the position. -/
def Journey.Consistent (m : Journey) : Prop :=
  ∀ t, HasDerivAt (fun s => (m.pos s).x) (m.vel t).x t ∧ HasDerivAt (fun s => (m.pos s).y) (m.vel t).y t ∧
    HasDerivAt (fun s => (m.pos s).z) (m.vel t).z t

/-- Successive measurements are at most `h` seconds apart. -/
def Spaced {α : Type} (time : α → ℝ) (h : ℝ) (l : List α) : Prop :=
  ∀ (i : ℕ) a b, l[i]? = some a → l[i + 1]? = some b → time b - time a ≤ h

/-- Roll, pitch and heading are the vehicle's, the heading up to whole turns. -/
def Journey.HasAttitude (m : Journey) (t roll pitch yaw : ℝ) : Prop :=
  roll = (m.rpy t).x ∧ pitch = (m.rpy t).y ∧ ∃ k : ℤ, yaw = (m.rpy t).z + 360 * k

/-- Measurements without errors above a flat seafloor at depth `floor`; the DVL is the origin of the vehicle's frame, the
depth sensor is mounted at `depth`. -/
structure Sampled (m : Journey) (floor : ℝ) (depth : V3 ℝ) (os : List (Attitude ℝ)) (vs : List (VelMeas ℝ))
    (alts : List (ℝ × ℝ)) (ds : List (DepthSample ℝ)) : Prop where
  attitude : ∀ o ∈ os, m.HasAttitude o.t o.roll o.pitch o.yaw
  velocity : ∀ v ∈ vs, v.v = m.body v.t
  altitude : ∀ a ∈ alts, a.2 = floor - (m.pos a.1).z
  depth : ∀ d ∈ ds, d.depth = (m.mountAt depth d.t).z

/-- Fixes without errors of a transponder at `p`. -/
def FixedAt (m : Journey) (p : V3 ℝ) (us : List (TrackPt ℝ)) : Prop :=
  ∀ u ∈ us, u.n = (m.mountAt p u.t).x ∧ u.e = (m.mountAt p u.t).y

/-- What dead reckoning should know about the time of `c`, but for the horizontal position. -/
structure CentreNear (m : Journey) (floor B U hv ha hd : ℝ) (origin : V3 ℝ) (c : Centre) : Prop where
  attitude : m.HasAttitude c.t c.roll c.pitch c.yaw
  surge : |c.vx - (m.body c.t).x| ≤ B * hv / 2
  sway : |c.vy - (m.body c.t).y| ≤ B * hv / 2
  heave : |c.vz - (m.body c.t).z| ≤ B * hv / 2
  depth : |c.depth - (m.mountAt origin c.t).z| ≤ U * hd / 2
  altitude : |c.altitude - (floor - (m.mountAt origin c.t).z)| ≤ U * ha / 2

/-- How well the pose `p` of a sensor mounted at `mount` is known at time `t`: `eH` metres horizontally, `eD` in depth, `eA` in
altitude, `eW` degrees in attitude, `eV` in velocity. -/
structure SensorNear (m : Journey) (floor : ℝ) (mount : V3 ℝ) (eH eD eA eW eV t : ℝ) (p : SensorPose) : Prop where
  roll : |p.roll - (m.rpy t).x| ≤ eW
  pitch : |p.pitch - (m.rpy t).y| ≤ eW
  yaw : ∃ k : ℤ, |p.yaw - ((m.rpy t).z + 360 * k)| ≤ eW
  surge : |p.vx - (m.body t).x| ≤ eV
  sway : |p.vy - (m.body t).y| ≤ eV
  heave : |p.vz - (m.body t).z| ≤ eV
  north : |p.northings - (m.mountAt mount t).x| ≤ eH
  east : |p.eastings - (m.mountAt mount t).y| ≤ eH
  depth : |p.depth - (m.mountAt mount t).z| ≤ eD
  altitude : |p.altitude - (floor - (m.mountAt mount t).z)| ≤ eA

end Oplab.Spec
