import Mathlib.Tactic.Ring
import Mathlib.Tactic.LinearCombination
import Mathlib.Tactic.NormNum
import Mathlib.Tactic.Linarith
import Verif.Model.Rotation
import Verif.Spec.Geometry

/-! Properties C01, C02, C07. -/

namespace Oplab.Props
open Real Oplab Oplab.Spec

private theorem v3ext {K : Type _} {a b : V3 K} (hx : a.x = b.x) (hy : a.y = b.y) (hz : a.z = b.z) :
    a = b := by cases a; cases b; simp_all

/-- C01: `body_to_inertial` is the roll rotation followed by the pitch rotation followed by the yaw
rotation, for all angles (degrees) and vectors. -/
theorem C01_is_zyx_rotation (roll pitch yaw : ℝ) (v : V3 ℝ) :
    bodyToInertial roll pitch yaw v = rotZ (rad yaw) (rotY (rad pitch) (rotX (rad roll) v)) := by
  apply v3ext <;> simp only [bodyToInertial, rotZ, rotY, rotX, rad, degToRad] <;> ring

/-- C01: dot products (hence lengths and angles) are preserved. -/
theorem C01_preserves_dot (roll pitch yaw : ℝ) (a b : V3 ℝ) :
    dot (bodyToInertial roll pitch yaw a) (bodyToInertial roll pitch yaw b) = dot a b := by
  rw [C01_is_zyx_rotation, C01_is_zyx_rotation]
  have hr := sin_sq_add_cos_sq (rad roll)
  have hp := sin_sq_add_cos_sq (rad pitch)
  have hy := sin_sq_add_cos_sq (rad yaw)
  have hX : ∀ u w : V3 ℝ, dot (rotX (rad roll) u) (rotX (rad roll) w) = dot u w := by
    intro u w; simp only [dot, rotX]; linear_combination (u.y * w.y + u.z * w.z) * hr
  have hY : ∀ u w : V3 ℝ, dot (rotY (rad pitch) u) (rotY (rad pitch) w) = dot u w := by
    intro u w; simp only [dot, rotY]; linear_combination (u.x * w.x + u.z * w.z) * hp
  have hZ : ∀ u w : V3 ℝ, dot (rotZ (rad yaw) u) (rotZ (rad yaw) w) = dot u w := by
    intro u w; simp only [dot, rotZ]; linear_combination (u.x * w.x + u.y * w.y) * hy
  rw [hZ, hY, hX]

/-- C01: handedness is preserved: the rotation is proper (no reflection). -/
theorem C01_preserves_cross (roll pitch yaw : ℝ) (a b : V3 ℝ) :
    cross (bodyToInertial roll pitch yaw a) (bodyToInertial roll pitch yaw b)
      = bodyToInertial roll pitch yaw (cross a b) := by
  simp only [C01_is_zyx_rotation]
  have hr := sin_sq_add_cos_sq (rad roll)
  have hp := sin_sq_add_cos_sq (rad pitch)
  have hy := sin_sq_add_cos_sq (rad yaw)
  have hX : ∀ u w : V3 ℝ, cross (rotX (rad roll) u) (rotX (rad roll) w) = rotX (rad roll) (cross u w) := by
    intro u w; apply v3ext <;> simp only [cross, rotX] <;>
      first
      | ring1
      | linear_combination (u.y * w.z - u.z * w.y) * hr
  have hY : ∀ u w : V3 ℝ, cross (rotY (rad pitch) u) (rotY (rad pitch) w) = rotY (rad pitch) (cross u w) := by
    intro u w; apply v3ext <;> simp only [cross, rotY] <;>
      first
      | ring1
      | linear_combination (u.z * w.x - u.x * w.z) * hp
  have hZ : ∀ u w : V3 ℝ, cross (rotZ (rad yaw) u) (rotZ (rad yaw) w) = rotZ (rad yaw) (cross u w) := by
    intro u w; apply v3ext <;> simp only [cross, rotZ] <;>
      first
      | ring1
      | linear_combination (u.x * w.y - u.y * w.x) * hy
  rw [hZ, hY, hX]

/-- C01: linearity. -/
theorem C01_linear (roll pitch yaw c : ℝ) (a b : V3 ℝ) :
    bodyToInertial roll pitch yaw (add (smul c a) b)
      = add (smul c (bodyToInertial roll pitch yaw a)) (bodyToInertial roll pitch yaw b) := by
  apply v3ext <;> simp only [bodyToInertial, add, smul] <;> ring

/-- C01: with a level, north-facing vehicle the rotation is the identity. -/
theorem C01_identity (v : V3 ℝ) : bodyToInertial 0 0 0 v = v := by
  apply v3ext <;> simp [bodyToInertial]

/-- Direction check: with zero roll and pitch and heading 90 degrees, "forward" points east and
"starboard" points south. -/
example : bodyToInertial 0 0 90 ⟨1, 0, 0⟩ = ⟨0, 1, 0⟩ ∧ bodyToInertial 0 0 90 ⟨0, 1, 0⟩ = ⟨-1, 0, 0⟩ := by
  have h : (90 : ℝ) * degToRad = π / 2 := by simp only [degToRad]; ring
  constructor <;> apply v3ext <;> simp [bodyToInertial, h]

/-- What C02 asks for, at one attitude. -/
def RoundTripsAt (roll pitch yaw : ℝ) : Prop :=
  ∀ v : V3 ℝ, inertialToBody roll pitch yaw (bodyToInertial roll pitch yaw v) = v

/-- C02 as stated is false of the code: with roll 0, pitch 90, yaw 90 degrees the
body z axis is not recovered. -/
theorem C02_inverse_false : ¬ ∀ roll pitch yaw : ℝ, RoundTripsAt roll pitch yaw := by
  intro h
  have h90 : (90 : ℝ) * degToRad = π / 2 := by simp only [degToRad]; ring
  have := congrArg V3.z (h 0 90 90 ⟨0, 0, 1⟩)
  simp [inertialToBody, bodyToInertial, h90] at this

/-- C02 (partial): the x and y components are always recovered; the z component is off by exactly
`sin yaw * sin pitch * (sin roll - cos roll)` times the inertial y component.
Missing for the full property: the z component at attitudes with that factor non-zero. -/
theorem C02_inverse_partial (roll pitch yaw : ℝ) (v : V3 ℝ) :
    inertialToBody roll pitch yaw (bodyToInertial roll pitch yaw v)
      = ⟨v.x, v.y, v.z + sin (rad yaw) * sin (rad pitch) * (sin (rad roll) - cos (rad roll))
            * (bodyToInertial roll pitch yaw v).y⟩ := by
  have hr := sin_sq_add_cos_sq (rad roll)
  have hp := sin_sq_add_cos_sq (rad pitch)
  have hy := sin_sq_add_cos_sq (rad yaw)
  obtain ⟨x, y, z⟩ := v
  simp only [rad] at *
  simp only [inertialToBody, bodyToInertial, degToRad]
  generalize sin (roll * (π / 180)) = sr at *
  generalize cos (roll * (π / 180)) = cr at *
  generalize sin (pitch * (π / 180)) = sp at *
  generalize cos (pitch * (π / 180)) = cp at *
  generalize sin (yaw * (π / 180)) = sy at *
  generalize cos (yaw * (π / 180)) = cy at *
  have hsr : sr ^ 2 = 1 - cr ^ 2 := by linear_combination hr
  have hsp : sp ^ 2 = 1 - cp ^ 2 := by linear_combination hp
  have hsy : sy ^ 2 = 1 - cy ^ 2 := by linear_combination hy
  apply v3ext
  · simp only; ring_nf; simp only [hsp, hsy]; ring
  · simp only; ring_nf; simp only [hsr, hsp, hsy]; ring
  · simp only; ring_nf; simp only [hsr, hsp, hsy]; ring

/-- C02 (partial): exactly which attitudes round-trip. -/
theorem C02_roundtrip_iff_partial (roll pitch yaw : ℝ) :
    RoundTripsAt roll pitch yaw ↔
      sin (rad yaw) * sin (rad pitch) * (sin (rad roll) - cos (rad roll)) = 0 := by
  constructor
  · intro h
    -- the body vector that maps onto the inertial y axis
    let e : V3 ℝ := ⟨sin (rad yaw) * cos (rad pitch),
      cos (rad yaw) * cos (rad roll) + sin (rad roll) * sin (rad pitch) * sin (rad yaw),
      -cos (rad yaw) * sin (rad roll) + sin (rad yaw) * cos (rad roll) * sin (rad pitch)⟩
    have he : (bodyToInertial roll pitch yaw e).y = 1 := by
      have hr := sin_sq_add_cos_sq (rad roll)
      have hp := sin_sq_add_cos_sq (rad pitch)
      have hy := sin_sq_add_cos_sq (rad yaw)
      simp only [e, bodyToInertial, degToRad]
      simp only [rad] at *
      linear_combination (sin (yaw * (π / 180)) ^ 2) * hp
        + (cos (yaw * (π / 180)) ^ 2 + sin (yaw * (π / 180)) ^ 2 * sin (pitch * (π / 180)) ^ 2) * hr
        + hy
    have h1 := h e
    rw [C02_inverse_partial] at h1
    have h2 := congrArg V3.z h1
    simp only [he] at h2
    linear_combination h2
  · intro h v
    rw [C02_inverse_partial, h]
    apply v3ext <;> simp

/-- A level vehicle (roll and pitch zero) at any heading does round-trip. -/
example (yaw : ℝ) : RoundTripsAt 0 0 yaw := by
  rw [C02_roundtrip_iff_partial]; simp [rad]

/-- What C07 asks for: a rigid body whose reference centre moves with velocity `vc` (body axes) and
turns at `w` deg/s has velocity `vc + w × r` at the DVL mounted at `r`; the corrected velocity
must be that of the centre. -/
def RecoversCentre (w r vc : V3 ℝ) : Prop :=
  correctLeverArm (add vc (cross (smul (π / 180) w) r)) w r = vc

/-- C07 as stated is false: a DVL 1 m ahead of a centre that is at rest while the vehicle turns
at 180 deg/s. The correction is added instead of subtracted. -/
theorem C07_recovers_centre_false : ¬ ∀ w r vc : V3 ℝ, RecoversCentre w r vc := by
  intro h
  have := congrArg V3.y (h ⟨0, 0, 180⟩ ⟨1, 0, 0⟩ ⟨0, 0, 0⟩)
  simp [correctLeverArm, add, cross, smul, degToRad] at this
  have := pi_pos
  linarith

/-- C07 (partial): the returned velocity is the measured one plus `w × r` (radians per second), for
every velocity, angular rate and lever arm. Missing: the sign needed to transfer DVL → centre. -/
theorem C07_lever_arm_partial (v w r : V3 ℝ) :
    correctLeverArm v w r = add v (cross (smul (π / 180) w) r) := by
  apply v3ext <;> simp only [correctLeverArm, add, cross, smul, degToRad] <;> ring

/-- C07 (partial): no rotation or no lever arm means no correction, and the correction is orthogonal to both. -/
theorem C07_correction_orthogonal_partial (v w r : V3 ℝ) :
    correctLeverArm v ⟨0, 0, 0⟩ r = v ∧ correctLeverArm v w ⟨0, 0, 0⟩ = v ∧
    dot (sub (correctLeverArm v w r) v) r = 0 ∧ dot (sub (correctLeverArm v w r) v) w = 0 := by
  refine ⟨?_, ?_, ?_, ?_⟩
  · apply v3ext <;> simp [correctLeverArm]
  · apply v3ext <;> simp [correctLeverArm]
  · simp only [correctLeverArm, dot, sub]; ring
  · simp only [correctLeverArm, dot, sub]; ring

/-- C07 (partial): the property that does hold of the function: with the lever arm negated (from the
DVL to the centre) it recovers the velocity of the centre of every rigid body. -/
theorem C07_negated_arm_recovers_partial (w r vc : V3 ℝ) :
    correctLeverArm (add vc (cross (smul (π / 180) w) r)) w (smul (-1) r) = vc := by
  apply v3ext <;> simp only [correctLeverArm, add, cross, smul, degToRad] <;> ring

example : ∃ w r : V3 ℝ, correctLeverArm ⟨1, 2, 3⟩ w r ≠ ⟨1, 2, 3⟩ := by
  refine ⟨⟨0, 0, 180⟩, ⟨1, 0, 0⟩, ?_⟩
  intro h
  have := congrArg V3.y h
  simp [correctLeverArm, degToRad] at this

end Oplab.Props
