import Verif.Model.Cone
import Verif.Spec.Geometry

/-!
# Rotations about an axis, and cones
-/

namespace Oplab.Spec
open Oplab Real

/-- Rodrigues: rotation by the angle `t` about the unit vector `k`, counterclockwise seen from its tip. -/
noncomputable def rotateAbout (k : V3 ℝ) (t : ℝ) (x : V3 ℝ) : V3 ℝ :=
  add (add (smul (cos t) x) (smul (sin t) (cross k x))) (smul ((1 - cos t) * dot k x) k)

/-- Length of a vector. -/
noncomputable def len (a : V3 ℝ) : ℝ := sqrt (dot a a)

/-- The line from the apex to `p` makes the angle `theta` with the (unit) axis. -/
def OnCone (apex axis : V3 ℝ) (theta : ℝ) (p : V3 ℝ) : Prop :=
  dot (sub p apex) axis = cos theta * len (sub p apex)

/-- The same for the cone and its mirror image. -/
def OnDoubleCone (apex axis : V3 ℝ) (theta : ℝ) (p : V3 ℝ) : Prop :=
  dot (sub p apex) axis ^ 2 = cos theta ^ 2 * dot (sub p apex) (sub p apex)

/-- Full property: the distance of a point is at most that to any point of the cone (the first part), and some point of the
cone has it. -/
def ConeDistance : Prop :=
  ∀ (apex axis p : V3 ℝ) (theta : ℝ), len axis = 1 → 0 < theta → theta < π / 2 →
    (∀ q, OnCone apex axis theta q → coneDistance p apex axis theta ≤ len (sub q p)) ∧
      ∃ q, OnCone apex axis theta q ∧ len (sub q p) = coneDistance p apex axis theta

/-- The points of the line through `o` in direction `r` that are on the cone or its mirror image. -/
def lineOnCone (apex axis : V3 ℝ) (theta : ℝ) (o r : V3 ℝ) : Set (V3 ℝ) :=
  {q | (∃ t : ℝ, q = add o (smul t r)) ∧ OnDoubleCone apex axis theta q}

/-- The points of a result. -/
def hitPoints : ConeHit → Set (V3 ℝ)
  | .none => ∅
  | .one p => {p}
  | .two p q => {p, q}
  | .notFinite => ∅

/-- Full property: the points in which a line meets the cone or its mirror image are returned, if these are finitely many. -/
def RayHits : Prop :=
  ∀ (apex axis o r : V3 ℝ) (theta : ℝ), len axis = 1 → r ≠ ⟨0, 0, 0⟩ → (lineOnCone apex axis theta o r).Finite →
    hitPoints (coneRay apex axis theta o r) = lineOnCone apex axis theta o r

/-- Full property: a plane can be drawn into an image. -/
def PlaneDrawn : Prop :=
  ∀ (p : PlaneObj) (ray : ℕ → ℕ → V3 ℝ) (o : V3 ℝ) (width height : ℕ), ∃ l, planeImage p ray o width height = .ok l

end Oplab.Spec
