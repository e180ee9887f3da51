import Mathlib.Analysis.SpecialFunctions.Trigonometric.Basic
import Verif.Model.Basic

namespace Oplab
open Real

/-- /repo/src/auv_nav/tools/body_to_inertial.py L18 and inertial_to_body.py L19: `deg_to_rad`.
Real numbers instead of floats. -/
noncomputable def degToRad : ℝ := π / 180

/-- /repo/src/auv_nav/tools/body_to_inertial.py L21-58 `body_to_inertial`. -/
noncomputable def bodyToInertial (roll pitch yaw : ℝ) (old : V3 ℝ) : V3 ℝ :=
  let roll := roll * degToRad
  let pitch := pitch * degToRad
  let yaw := yaw * degToRad
  { x := (cos yaw * cos pitch) * old.x
        + (-sin yaw * cos roll + cos yaw * sin pitch * sin roll) * old.y
        + (sin yaw * sin roll + (cos yaw * cos roll * sin pitch)) * old.z
    y := (sin yaw * cos pitch) * old.x
        + (cos yaw * cos roll + sin roll * sin pitch * sin yaw) * old.y
        + (-cos yaw * sin roll + sin yaw * cos roll * sin pitch) * old.z
    z := (-sin pitch * old.x)
        + (cos pitch * sin roll) * old.y
        + (cos pitch * cos roll) * old.z }

/-- /repo/src/auv_nav/tools/inertial_to_body.py L22-74 `inertial_to_body`
(the entry marked `f` is copied as written: `-cy*sr + sy*sp*sr`, L70). -/
noncomputable def inertialToBody (roll pitch yaw : ℝ) (old : V3 ℝ) : V3 ℝ :=
  let roll := roll * degToRad
  let pitch := pitch * degToRad
  let yaw := yaw * degToRad
  let cr := cos roll
  let sr := sin roll
  let cp := cos pitch
  let sp := sin pitch
  let cy := cos yaw
  let sy := sin yaw
  { x := (cy * cp) * old.x + (sy * cp) * old.y + (-sp) * old.z
    y := (-sy * cr + cy * sp * sr) * old.x
        + (cy * cr + sy * sp * sr) * old.y
        + (cp * sr) * old.z
    z := (sy * sr + cy * sp * cr) * old.x
        + (-cy * sr + sy * sp * sr) * old.y
        + (cp * cr) * old.z }

/-- /repo/src/auv_nav/tools/dvl_level_arm.py L12-38 `correct_lever_arm`;
`math.radians` is multiplication by `π/180`. -/
noncomputable def correctLeverArm (v w r : V3 ℝ) : V3 ℝ :=
  let wx := w.x * degToRad
  let wy := w.y * degToRad
  let wz := w.z * degToRad
  { x := v.x + (wy * r.z - wz * r.y)
    y := v.y + (-wx * r.z + wz * r.x)
    z := v.z + (wx * r.y - wy * r.x) }

end Oplab
