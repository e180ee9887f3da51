import Mathlib.Algebra.Quaternion
import Mathlib.Data.Real.Basic
import Verif.Model.Basic

/-! What a quaternion does with a vector, by the product of quaternions. -/

namespace Oplab.Spec
open Quaternion

/-- The quaternion `w + x i + y j + z k`. -/
def hamilton (x y z w : ℝ) : ℍ[ℝ] := ⟨w, x, y, z⟩

/-- `v` turned by `q`: `q v q⁻¹`. -/
noncomputable def turned (q : ℍ[ℝ]) (v : V3 ℝ) : V3 ℝ :=
  let r := q * hamilton v.x v.y v.z 0 * q⁻¹
  ⟨r.imI, r.imJ, r.imK⟩

/-- All components of two vectors differ by at most `e`. -/
def Near3 (e : ℝ) (a b : V3 ℝ) : Prop := |a.x - b.x| ≤ e ∧ |a.y - b.y| ≤ e ∧ |a.z - b.z| ≤ e

/-- Sum of the absolute values of the components. -/
def size1 (v : V3 ℝ) : ℝ := |v.x| + |v.y| + |v.z|

end Oplab.Spec
