import Verif.Model.Rotation

/-!
# Rigid-body kinematics over one time step

Position changes by the step times the velocity in the inertial frame; Euler angles change
by the step times their rates; body velocity and turn rates stay.  Angles in radians.
-/

namespace Oplab.Spec
open Real

/-- Pose (radians) and body rates of a vehicle. -/
structure Motion where
  pos : V3 ℝ
  rpy : V3 ℝ
  vel : V3 ℝ
  rate : V3 ℝ

/-- Rates of roll, pitch and yaw for body turn rates `w` at attitude `rpy`. -/
noncomputable def eulerRates (rpy w : V3 ℝ) : V3 ℝ :=
  { x := w.x + sin rpy.x * tan rpy.y * w.y + cos rpy.x * tan rpy.y * w.z
    y := cos rpy.x * w.y - sin rpy.x * w.z
    z := sin rpy.x / cos rpy.y * w.y + cos rpy.x / cos rpy.y * w.z }

/-- The motion over a time step `d`, with the rotation of the navigation code. -/
noncomputable def Motion.step (d : ℝ) (m : Motion) : Motion :=
  let u := bodyToInertial (m.rpy.x * 180 / π) (m.rpy.y * 180 / π) (m.rpy.z * 180 / π) m.vel
  let r := eulerRates m.rpy m.rate
  { pos := ⟨m.pos.x + d * u.x, m.pos.y + d * u.y, m.pos.z + d * u.z⟩
    rpy := ⟨m.rpy.x + d * r.x, m.rpy.y + d * r.y, m.rpy.z + d * r.z⟩
    vel := m.vel
    rate := m.rate }

end Oplab.Spec
