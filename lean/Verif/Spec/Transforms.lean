import Verif.Model.Transforms
import Verif.Spec.Geometry
import Verif.Spec.Cone
import Verif.Spec.Quaternion

/-! # Rotations, from the textbook -/

namespace Oplab.Spec
open Oplab Real

/-- Turning about the axis with a name. -/
noncomputable def turnAbout (c : Char) (a : ℝ) (v : V3 ℝ) : V3 ℝ :=
  if c = 'x' then rotX a v else if c = 'y' then rotY a v else rotZ a v

/-- The names of sequences of axes: `s` for fixed axes or `r` for axes that turn with the body, and three axes of which no two in a row are the
same. -/
def AxesName (axes : List Char) : Prop :=
  ∃ f p q r, axes = [f, p, q, r] ∧ (f = 's' ∨ f = 'r') ∧ (p = 'x' ∨ p = 'y' ∨ p = 'z') ∧ (q = 'x' ∨ q = 'y' ∨ q = 'z') ∧
    (r = 'x' ∨ r = 'y' ∨ r = 'z') ∧ p ≠ q ∧ q ≠ r

/-- A vector turned by three angles: about fixed axes in the order of the name, about axes that turn with the body in reverse. -/
noncomputable def namedTurn (axes : List Char) (a b c : ℝ) (v : V3 ℝ) : V3 ℝ :=
  match axes with
  | [f, p, q, r] =>
    if f = 's' then turnAbout r c (turnAbout q b (turnAbout p a v)) else turnAbout p a (turnAbout q b (turnAbout r c v))
  | _ => v

/-- The product of quaternions turns by one after the other, for all quaternions that give a rotation. -/
def ProductTurns : Prop :=
  ∀ q1 q0 : RosQuat, quatEps ≤ q1.sq → quatEps ≤ q0.sq → ∀ v,
    matVec (quatMatrix (quatMul q1 q0)) v = matVec (quatMatrix q1) (matVec (quatMatrix q0) v)

/-- The functions for angles take the same names. -/
def SameNames : Prop :=
  ∀ axes a b c, (∃ m, eulerMatrix axes a b c = .ok m) ↔ ∃ q, quaternionFromEuler axes a b c = .ok q

/-- The direction of a vector. -/
noncomputable def dirOf (a : V3 ℝ) : V3 ℝ := smul (1 / len a) a

/-- The quaternion about an axis turns about this axis, for all axes. -/
def AxisTurns : Prop :=
  ∀ (t : ℝ) (d v : V3 ℝ), len d ≠ 0 → matVec (quatMatrix (quatAboutAxis t d)) v = rotateAbout (dirOf d) t v

/-- What is interpolated between two quaternions has the length 1. -/
def SlerpUnit (spin : ℤ) : Prop :=
  ∀ (q0 q1 : RosQuat) (f : ℝ) (short : Bool), q0.sq ≠ 0 → q1.sq ≠ 0 → (quatSlerp q0 q1 f spin short).sq = 1

/-- The cosine of the angle between two quaternions, as vectors. -/
noncomputable def quatCos (p q : RosQuat) : ℝ := (p.x * q.x + p.y * q.y + p.z * q.z + p.w * q.w) / (√p.sq * √q.sq)

/-- The middle angle is away from those for which the other two cannot be told apart: a quarter turn if all axes differ, none or half a turn if
the first is used again. -/
def Tellable (axes : List Char) (b : ℝ) : Prop :=
  quatEps < if axes[1]? = axes[3]? then |sin b| else |cos b|

/-- The middle angle is exactly one of those for which the other two cannot be told apart. -/
def Locked (axes : List Char) (b : ℝ) : Prop := if axes[1]? = axes[3]? then sin b = 0 else cos b = 0

end Oplab.Spec
