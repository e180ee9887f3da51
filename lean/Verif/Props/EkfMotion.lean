import Verif.Model.Ekf
import Verif.Spec.Motion
import Mathlib.Analysis.SpecialFunctions.Trigonometric.Deriv
import Mathlib.Analysis.Calculus.Deriv.Inv
import Mathlib.Tactic.FieldSimp
import Mathlib.Tactic.FinCases

/-! C30 (the Jacobian is the derivative of the motion model) and C67 (the motion model is
the kinematics dead reckoning uses). -/

namespace Oplab.Props
open Real Matrix Oplab Oplab.Spec Oplab.Ix

/-- The EKF motion model: what `predict` does to the state before wrapping. -/
noncomputable def motionModel (delta : ℝ) (s : KVec) : KVec := transferFunction delta s *ᵥ s

/-- The parts of a state vector. -/
def toMotion (s : KVec) : Motion :=
  ⟨⟨s 0, s 1, s 2⟩, ⟨s 3, s 4, s 5⟩, ⟨s 6, s 7, s 8⟩, ⟨s 9, s 10, s 11⟩⟩

theorem tf_entries (d : ℝ) (s : KVec) : transferFunction d s = Matrix.of ![
    ![1, 0, 0, 0, 0, 0, cos (s 5) * cos (s 4) * d, (cos (s 5) * sin (s 4) * sin (s 3) - sin (s 5) * cos (s 3)) * d, (cos (s 5) * sin (s 4) * cos (s 3) + sin (s 5) * sin (s 3)) * d, 0, 0, 0],
    ![0, 1, 0, 0, 0, 0, sin (s 5) * cos (s 4) * d, (sin (s 5) * sin (s 4) * sin (s 3) + cos (s 5) * cos (s 3)) * d, (sin (s 5) * sin (s 4) * cos (s 3) - cos (s 5) * sin (s 3)) * d, 0, 0, 0],
    ![0, 0, 1, 0, 0, 0, -sin (s 4) * d, cos (s 4) * sin (s 3) * d, cos (s 4) * cos (s 3) * d, 0, 0, 0],
    ![0, 0, 0, 1, 0, 0, 0, 0, 0, d, sin (s 3) * (sin (s 4) * (1 / cos (s 4))) * d, cos (s 3) * (sin (s 4) * (1 / cos (s 4))) * d],
    ![0, 0, 0, 0, 1, 0, 0, 0, 0, 0, cos (s 3) * d, -sin (s 3) * d],
    ![0, 0, 0, 0, 0, 1, 0, 0, 0, 0, sin (s 3) * (1 / cos (s 4)) * d, cos (s 3) * (1 / cos (s 4)) * d],
    ![0, 0, 0, 0, 0, 0, 1, 0, 0, 0, 0, 0],
    ![0, 0, 0, 0, 0, 0, 0, 1, 0, 0, 0, 0],
    ![0, 0, 0, 0, 0, 0, 0, 0, 1, 0, 0, 0],
    ![0, 0, 0, 0, 0, 0, 0, 0, 0, 1, 0, 0],
    ![0, 0, 0, 0, 0, 0, 0, 0, 0, 0, 1, 0],
    ![0, 0, 0, 0, 0, 0, 0, 0, 0, 0, 0, 1]] := by
  ext i j
  fin_cases i <;> fin_cases j <;> rfl

set_option maxHeartbeats 1000000 in
private theorem motion_entries (d : ℝ) (s : KVec) : motionModel d s = ![
    s 0 + (cos (s 5) * cos (s 4) * d * s 6 + (cos (s 5) * sin (s 4) * sin (s 3) - sin (s 5) * cos (s 3)) * d * s 7
      + (cos (s 5) * sin (s 4) * cos (s 3) + sin (s 5) * sin (s 3)) * d * s 8),
    s 1 + (sin (s 5) * cos (s 4) * d * s 6 + (sin (s 5) * sin (s 4) * sin (s 3) + cos (s 5) * cos (s 3)) * d * s 7
      + (sin (s 5) * sin (s 4) * cos (s 3) - cos (s 5) * sin (s 3)) * d * s 8),
    s 2 + (-sin (s 4) * d * s 6 + cos (s 4) * sin (s 3) * d * s 7 + cos (s 4) * cos (s 3) * d * s 8),
    s 3 + (d * s 9 + sin (s 3) * (sin (s 4) * (1 / cos (s 4))) * d * s 10
      + cos (s 3) * (sin (s 4) * (1 / cos (s 4))) * d * s 11),
    s 4 + (cos (s 3) * d * s 10 + -sin (s 3) * d * s 11),
    s 5 + (sin (s 3) * (1 / cos (s 4)) * d * s 10 + cos (s 3) * (1 / cos (s 4)) * d * s 11),
    s 6, s 7, s 8, s 9, s 10, s 11] := by
  funext i
  fin_cases i <;>
    simp [motionModel, mulVec, dotProduct, Fin.sum_univ_succ, tf_entries] <;> ring

/-- C67: predicting is one step of the kinematics, with the rotation dead reckoning uses. -/
theorem C67_motion (d : ℝ) (s : KVec) :
    toMotion (motionModel d s) = (toMotion s).step d := by
  have h : ∀ x : ℝ, x * 180 / π * (π / 180) = x := fun x => by field_simp
  rw [motion_entries]
  simp only [toMotion, Motion.step, bodyToInertial, degToRad, h, eulerRates, tan_eq_sin_div_cos]
  congr 1 <;> congr 1 <;> simp <;> ring

/-- C67: `predict` takes that step and then wraps the angles, and fails only where the
pitch is at the singularity. -/
theorem C67_predict (e : Ekf) (t d : ℝ) (h : cos (e.state PITCH) ≠ 0) :
    ∃ e', e.predict t d = .ok e' ∧
      ∃ s, toMotion s = (toMotion e.state).step d ∧
        (∀ i, i ≠ ROLL → i ≠ PITCH → i ≠ YAW → e'.state i = s i) ∧
        (∀ i, i = ROLL ∨ i = PITCH ∨ i = YAW → e'.state i = clampRotation (s i)) := by
  refine ⟨_, by rw [Ekf.predict, if_neg h], motionModel d e.state, C67_motion d e.state, ?_, ?_⟩
  · intro i h1 h2 h3
    simp [wrapState, h1, h2, h3, motionModel]
  · intro i hi
    simp only [wrapState, if_pos hi, motionModel]

theorem jac_entries (d : ℝ) (s : KVec) :
    transferJacobian d s (transferFunction d s) = Matrix.of ![
    ![1, 0, 0, ((cos (s 5) * sin (s 4) * cos (s 3) + sin (s 5) * sin (s 3)) * s 7 + (-cos (s 5) * sin (s 4) * sin (s 3) + sin (s 5) * cos (s 3)) * s 8) * d, (-cos (s 5) * sin (s 4) * s 6 + cos (s 5) * cos (s 4) * sin (s 3) * s 7 + cos (s 5) * cos (s 4) * cos (s 3) * s 8) * d, (-sin (s 5) * cos (s 4) * s 6 + (-sin (s 5) * sin (s 4) * sin (s 3) - cos (s 5) * cos (s 3)) * s 7 + (-sin (s 5) * sin (s 4) * cos (s 3) + cos (s 5) * sin (s 3)) * s 8) * d, cos (s 5) * cos (s 4) * d, (cos (s 5) * sin (s 4) * sin (s 3) - sin (s 5) * cos (s 3)) * d, (cos (s 5) * sin (s 4) * cos (s 3) + sin (s 5) * sin (s 3)) * d, 0, 0, 0],
    ![0, 1, 0, ((sin (s 5) * sin (s 4) * cos (s 3) - cos (s 5) * sin (s 3)) * s 7 + (-sin (s 5) * sin (s 4) * sin (s 3) - cos (s 5) * cos (s 3)) * s 8) * d, (-sin (s 5) * sin (s 4) * s 6 + sin (s 5) * cos (s 4) * sin (s 3) * s 7 + sin (s 5) * cos (s 4) * cos (s 3) * s 8) * d, (cos (s 5) * cos (s 4) * s 6 + (cos (s 5) * sin (s 4) * sin (s 3) - sin (s 5) * cos (s 3)) * s 7 + (cos (s 5) * sin (s 4) * cos (s 3) + sin (s 5) * sin (s 3)) * s 8) * d, sin (s 5) * cos (s 4) * d, (sin (s 5) * sin (s 4) * sin (s 3) + cos (s 5) * cos (s 3)) * d, (sin (s 5) * sin (s 4) * cos (s 3) - cos (s 5) * sin (s 3)) * d, 0, 0, 0],
    ![0, 0, 1, (cos (s 4) * cos (s 3) * s 7 + -cos (s 4) * sin (s 3) * s 8) * d, (-cos (s 4) * s 6 + -sin (s 4) * sin (s 3) * s 7 + -sin (s 4) * cos (s 3) * s 8) * d, 0, -sin (s 4) * d, cos (s 4) * sin (s 3) * d, cos (s 4) * cos (s 3) * d, 0, 0, 0],
    ![0, 0, 0, 1 + (cos (s 3) * (sin (s 4) * (1 / cos (s 4))) * s 10 - sin (s 3) * (sin (s 4) * (1 / cos (s 4))) * s 11) * d, ((1 / cos (s 4)) * (1 / cos (s 4)) * sin (s 3) * s 10 + (1 / cos (s 4)) * (1 / cos (s 4)) * cos (s 3) * s 11) * d, 0, 0, 0, 0, d, sin (s 3) * (sin (s 4) * (1 / cos (s 4))) * d, cos (s 3) * (sin (s 4) * (1 / cos (s 4))) * d],
    ![0, 0, 0, (-sin (s 3) * s 10 - cos (s 3) * s 11) * d, 1, 0, 0, 0, 0, 0, cos (s 3) * d, -sin (s 3) * d],
    ![0, 0, 0, (cos (s 3) * (1 / cos (s 4)) * s 10 - sin (s 3) * (1 / cos (s 4)) * s 11) * d, (sin (s 3) * (sin (s 4) * (1 / cos (s 4))) * (1 / cos (s 4)) * s 10 + cos (s 3) * (sin (s 4) * (1 / cos (s 4))) * (1 / cos (s 4)) * s 11) * d, 1, 0, 0, 0, 0, sin (s 3) * (1 / cos (s 4)) * d, cos (s 3) * (1 / cos (s 4)) * d],
    ![0, 0, 0, 0, 0, 0, 1, 0, 0, 0, 0, 0],
    ![0, 0, 0, 0, 0, 0, 0, 1, 0, 0, 0, 0],
    ![0, 0, 0, 0, 0, 0, 0, 0, 1, 0, 0, 0],
    ![0, 0, 0, 0, 0, 0, 0, 0, 0, 1, 0, 0],
    ![0, 0, 0, 0, 0, 0, 0, 0, 0, 0, 1, 0],
    ![0, 0, 0, 0, 0, 0, 0, 0, 0, 0, 0, 1]] := by
  ext i j
  fin_cases i <;> fin_cases j <;> rfl

/-- Differentiate sums and products of sines, cosines and reciprocals of cosines. -/
local macro "derive_tac" h:ident : tactic => `(tactic|
  repeat first
    | exact hasDerivAt_const _ _
    | exact hasDerivAt_id' _
    | exact hasDerivAt_sin _
    | exact hasDerivAt_cos _
    | exact HasDerivAt.fun_inv (hasDerivAt_cos _) $h
    | apply HasDerivAt.fun_add
    | apply HasDerivAt.fun_sub
    | apply HasDerivAt.fun_mul
    | apply HasDerivAt.fun_neg)

set_option maxHeartbeats 2000000 in
/-- C30: every entry of the Jacobian is the partial derivative of the motion model. -/
theorem C30_jacobian (d : ℝ) (x : KVec) (hc : cos (x PITCH) ≠ 0) (i k : Ix) :
    HasDerivAt (fun h => motionModel d (Function.update x k h) i)
      (transferJacobian d x (transferFunction d x) i k) (x k) := by
  have hc' : cos (x 4) ≠ 0 := hc
  simp only [motion_entries, jac_entries]
  fin_cases k <;> fin_cases i <;>
  · simp [Function.update]
    refine HasDerivAt.congr_deriv (by derive_tac hc') ?_
    field_simp
    all_goals first
      | ring1
      | linear_combination (sin (x 3) * d * x 10 + d * cos (x 3) * x 11) * sin_sq_add_cos_sq (x 4)

/-- Non-vacuity: level attitude is away from the singularity. -/
example : cos ((fun _ => 0 : KVec) PITCH) ≠ 0 := by simp

end Oplab.Props
