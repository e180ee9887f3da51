import Verif.Model.Projections
import Verif.Spec.Transforms

/-! # Projections, scaling and shear, from the textbook -/

namespace Oplab.Spec
open Oplab

/-- The point lies in the plane through `p` with the normal `n`. -/
def InPlane (p n r : V3 ℝ) : Prop := dot (sub r p) n = 0

/-- The matrix takes the point `v` to the point `r`: the fourth number is not zero, and the others divided by it are those of `r`. -/
def Takes (a : Hom4) (v r : V3 ℝ) : Prop := (homVec a v).2 ≠ 0 ∧ r = smul (1 / (homVec a v).2) (homVec a v).1

/-- The height of a point above the plane, on the side to which the normal points. -/
noncomputable def heightAbove (p n v : V3 ℝ) : ℝ := dot (sub v p) n / len n

/-- Full statement for shear: whenever a matrix is made, points keep their height above the plane. -/
def ShearKeepsHeights : Prop :=
  ∀ (a : ℝ) (d p n v r : V3 ℝ) (m : Hom4), len d ≠ 0 → len n ≠ 0 → shearMatrix a d p n = .ok m → Takes m v r →
    heightAbove p n r = heightAbove p n v

end Oplab.Spec
