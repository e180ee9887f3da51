import Mathlib.Analysis.SpecialFunctions.Trigonometric.Basic
import Verif.Model.Basic

/-! Elementary geometry used to state the rotation properties, written from the textbook and
not from the code. -/

namespace Oplab.Spec
open Real

noncomputable def rad (deg : ℝ) : ℝ := deg * (π / 180)

/-- Rotation about the x axis (roll), angle in radians. -/
noncomputable def rotX (a : ℝ) (v : V3 ℝ) : V3 ℝ :=
  ⟨v.x, cos a * v.y - sin a * v.z, sin a * v.y + cos a * v.z⟩
/-- Rotation about the y axis (pitch). -/
noncomputable def rotY (a : ℝ) (v : V3 ℝ) : V3 ℝ :=
  ⟨cos a * v.x + sin a * v.z, v.y, -sin a * v.x + cos a * v.z⟩
/-- Rotation about the z axis (yaw). -/
noncomputable def rotZ (a : ℝ) (v : V3 ℝ) : V3 ℝ :=
  ⟨cos a * v.x - sin a * v.y, sin a * v.x + cos a * v.y, v.z⟩

variable {K : Type} [CommRing K]
def dot (a b : V3 K) : K := a.x * b.x + a.y * b.y + a.z * b.z
def cross (a b : V3 K) : V3 K :=
  ⟨a.y * b.z - a.z * b.y, a.z * b.x - a.x * b.z, a.x * b.y - a.y * b.x⟩
def add (a b : V3 K) : V3 K := ⟨a.x + b.x, a.y + b.y, a.z + b.z⟩
def sub (a b : V3 K) : V3 K := ⟨a.x - b.x, a.y - b.y, a.z - b.z⟩
def smul (c : K) (a : V3 K) : V3 K := ⟨c * a.x, c * a.y, c * a.z⟩

end Oplab.Spec
