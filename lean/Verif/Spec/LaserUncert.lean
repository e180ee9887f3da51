import Verif.Model.LaserUncert
import Verif.Spec.Laser
import Verif.Spec.Calib

/-!
# Triples of points that can be drawn
-/

namespace Oplab.Spec
open Oplab

/-- Three points of the cloud, from three different places of it. -/
def DrawnFrom (cloud : List (V3 ℝ)) (t : V3 ℝ × V3 ℝ × V3 ℝ) : Prop := [t.1, t.2.1, t.2.2].Subperm cloud

/-- Seen along the first axis, the three points are at least `d` from each other, and the sine of the angle at the first one
is at least 0.866. -/
def GoodTriple (d : ℝ) (t : V3 ℝ × V3 ℝ × V3 ℝ) : Prop :=
  d ≤ distYZ t.1 t.2.1 ∧ d ≤ distYZ t.1 t.2.2 ∧ d ≤ distYZ t.2.1 t.2.2 ∧
    866 / 1000 * (distYZ t.1 t.2.1 * distYZ t.1 t.2.2) ≤
      |(t.2.1.y - t.1.y) * (t.2.2.z - t.1.z) - (t.2.1.z - t.1.z) * (t.2.2.y - t.1.y)|

/-- The mean squared distance of the points from their centre `(my, mz)`, seen along the first axis. -/
noncomputable def spreadAbout (cloud : List (V3 ℝ)) (my mz : ℝ) : ℝ :=
  (cloud.map fun p => (p.y - my) ^ 2 + (p.z - mz) ^ 2).sum / cloud.length

/-- The points of the cloud are not on one line, seen along the first axis. -/
def NotAligned (cloud : List (V3 ℝ)) : Prop :=
  ∃ a ∈ cloud, ∃ b ∈ cloud, ∃ c ∈ cloud, (b.y - a.y) * (c.z - a.z) - (b.z - a.z) * (c.y - a.y) ≠ 0

/-- Full property: the search for the uncertainty planes can end for every cloud of at least four points that are not aligned. -/
def SearchEnds : Prop :=
  ∀ (inliers : List (V3 ℝ)) (num : ℕ), 4 ≤ inliers.length → inliers.Nodup → NotAligned inliers →
    ∃ draws, (∀ t ∈ draws, DrawnFrom inliers t) ∧ ∃ r, uncertLoop num (minDistOf inliers) draws [] = some r

end Oplab.Spec
