import Verif.Model.Ekf
import Verif.Spec.Geometry

/-!
# A straight run

A vehicle that keeps its attitude and its speed, and sensors without errors. Everything that estimates its path should
find it.
-/

namespace Oplab.Spec
open Oplab Real

/-- At time `t0` the DVL is at `p0` (north, east, down); the vehicle keeps the attitude `rpy` (degrees) and the velocity `v`
along its own axes. -/
structure StraightRun where
  t0 : ℝ
  p0 : V3 ℝ
  rpy : V3 ℝ
  v : V3 ℝ

/-- A vector along the vehicle's axes as north, east, down. -/
noncomputable def StraightRun.turned (r : StraightRun) (u : V3 ℝ) : V3 ℝ :=
  rotZ (rad r.rpy.z) (rotY (rad r.rpy.y) (rotX (rad r.rpy.x) u))

/-- Where the DVL is at time `t`. -/
noncomputable def StraightRun.dvlAt (r : StraightRun) (t : ℝ) : V3 ℝ := add r.p0 (smul (t - r.t0) (r.turned r.v))

/-- Where a point of the vehicle is at time `t` if it is mounted at `m` and the DVL at `dvl`. -/
noncomputable def StraightRun.mountAt (r : StraightRun) (dvl m : V3 ℝ) (t : ℝ) : V3 ℝ :=
  add (r.dvlAt t) (r.turned (sub m dvl))

/-- The same direction: equal up to whole turns. -/
def SameAngle (turn a b : ℝ) : Prop := ∃ k : ℤ, a = b + k * turn

/-- Sensors without errors: `usbl`, `depth` and `dvl` are where the sensors are mounted. -/
structure TrueData (r : StraightRun) (usbl depth dvl : V3 ℝ) (q : Queues) : Prop where
  orient : ∀ o ∈ q.orient, SameAngle 360 o.rpy.x r.rpy.x ∧ SameAngle 360 o.rpy.y r.rpy.y ∧ SameAngle 360 o.rpy.z r.rpy.z
  usbl : ∀ u ∈ q.usbl, u.north = (r.mountAt dvl usbl u.time).x ∧ u.east = (r.mountAt dvl usbl u.time).y
  depth : ∀ d ∈ q.depth, d.depth = (r.mountAt dvl depth d.time).z
  dvl : ∀ d ∈ q.dvl, d.v = r.v

/-- The state `s` is what the vehicle does at time `t`. -/
structure TrueState (r : StraightRun) (t : ℝ) (s : KVec) : Prop where
  position : (⟨s Ix.X, s Ix.Y, s Ix.Z⟩ : V3 ℝ) = r.dvlAt t
  roll : SameAngle (2 * π) (s Ix.ROLL) (rad r.rpy.x)
  pitch : SameAngle (2 * π) (s Ix.PITCH) (rad r.rpy.y)
  yaw : SameAngle (2 * π) (s Ix.YAW) (rad r.rpy.z)
  velocity : (⟨s Ix.VX, s Ix.VY, s Ix.VZ⟩ : V3 ℝ) = r.v
  rates : s Ix.VROLL = 0 ∧ s Ix.VPITCH = 0 ∧ s Ix.VYAW = 0

end Oplab.Spec
