import Verif.Model.Calib
import Mathlib.LinearAlgebra.Matrix.Determinant.Basic

/-! Vocabulary for the calibration geometry. -/

namespace Oplab.Spec

/-- The point satisfies `n . p + d = 0`. -/
def OnPlane (n : V3 ℝ) (d : ℝ) (p : V3 ℝ) : Prop := n.x * p.x + n.y * p.y + n.z * p.z + d = 0

/-- Euclidean distance of two points. -/
noncomputable def dist3 (p q : V3 ℝ) : ℝ := Real.sqrt ((p.x - q.x) ^ 2 + (p.y - q.y) ^ 2 + (p.z - q.z) ^ 2)

/-- Length of a vector. -/
noncomputable def len3 (p : V3 ℝ) : ℝ := Real.sqrt (p.x ^ 2 + p.y ^ 2 + p.z ^ 2)

/-- `p` is on the line through `o` with direction `r`. -/
def OnRayLine (o r p : V3 ℝ) : Prop := ∃ t : ℝ, p = ⟨o.x + t * r.x, o.y + t * r.y, o.z + t * r.z⟩

/-- Rotation about the x axis. -/
noncomputable def elemRotX (a : ℝ) : Matrix (Fin 3) (Fin 3) ℝ :=
  !![1, 0, 0; 0, Real.cos a, -Real.sin a; 0, Real.sin a, Real.cos a]

/-- Rotation about the y axis. -/
noncomputable def elemRotY (a : ℝ) : Matrix (Fin 3) (Fin 3) ℝ :=
  !![Real.cos a, 0, Real.sin a; 0, 1, 0; -Real.sin a, 0, Real.cos a]

/-- Rotation about the z axis. -/
noncomputable def elemRotZ (a : ℝ) : Matrix (Fin 3) (Fin 3) ℝ :=
  !![Real.cos a, -Real.sin a, 0; Real.sin a, Real.cos a, 0; 0, 0, 1]

/-- A rotation matrix. -/
def IsRotation (R : Matrix (Fin 3) (Fin 3) ℝ) : Prop := R * R.transpose = 1 ∧ R.det = 1

end Oplab.Spec
