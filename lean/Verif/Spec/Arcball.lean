import Verif.Model.Arcball
import Verif.Spec.Projections

/-! # View volumes and the trackball, specification -/

namespace Oplab.Spec
open Oplab

/-- Inside the cube of normalised device coordinates. -/
def InCube (r : V3 ℝ) : Prop := (-1 ≤ r.x ∧ r.x ≤ 1) ∧ (-1 ≤ r.y ∧ r.y ≤ 1) ∧ (-1 ≤ r.z ∧ r.z ≤ 1)

/-- Inside the box with the given sides. -/
def InBox (left right bottom top near far : ℝ) (v : V3 ℝ) : Prop :=
  (left ≤ v.x ∧ v.x ≤ right) ∧ (bottom ≤ v.y ∧ v.y ≤ top) ∧ (near ≤ v.z ∧ v.z ≤ far)

/-- Inside the pyramid with its tip at the origin, cut at `near` and `far`: the line from the tip through the point passes between the sides where
it crosses the near plane. -/
def InPyramid (left right bottom top near far : ℝ) (v : V3 ℝ) : Prop :=
  (left ≤ near * v.x / v.z ∧ near * v.x / v.z ≤ right) ∧ (bottom ≤ near * v.y / v.z ∧ near * v.y / v.z ≤ top) ∧
    (near ≤ v.z ∧ v.z ≤ far)

/-- Full statement for the arc about an axis: the result is on the sphere, across the axis and on the near side. -/
def OnArc : Prop :=
  ∀ p a : V3 ℝ, len a = 1 → len (arcballConstrain p a) = 1 ∧ dot (arcballConstrain p a) a = 0 ∧ 0 ≤ (arcballConstrain p a).z

end Oplab.Spec
