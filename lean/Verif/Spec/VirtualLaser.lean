import Verif.Model.VirtualLaser

/-! What virtual images of a laser should show. -/

namespace Oplab.Spec
open Oplab

/-- A point in the image is drawn: some pixel in its column, next to it, gets at least half of the full brightness or two share it. -/
def PointDrawn : Prop :=
  ∀ (img img' : GreyImage) (c : ℕ) (y : ℚ), c < img.width → 0 ≤ y → y + 1 < img.height → drawGaussian img c y = .ok img' →
    ∃ r : ℕ, |(r : ℚ) - y| < 1 ∧ 127 ≤ img'.at' r c

/-- A point does not remove what another one has drawn. -/
def DrawingAdds : Prop :=
  ∀ (img img' : GreyImage) (c : ℕ) (y : ℚ), c < img.width → 0 ≤ y → y + 1 < img.height → drawGaussian img c y = .ok img' →
    ∀ i j, img.at' i j ≤ img'.at' i j

/-- All altitudes are one step apart. -/
def StepsKept : Prop :=
  ∀ (amin amax step : ℚ), amin < amax → 0 < step → ∀ (k : ℕ) (a b : ℚ), (virtualAltitudes amin amax step)[k]? = some a →
    (virtualAltitudes amin amax step)[k + 1]? = some b → b - a = step

/-- A point is on a plane. -/
def OnVirtualPlane (plane : V3 ℚ × ℚ) (p : V3 ℚ) : Prop := plane.1.x * p.x + plane.1.y * p.y + plane.1.z * p.z + plane.2 = 0

/-- The points are on the laser plane. -/
def PointsOnPlane : Prop := ∀ (plane : V3 ℚ × ℚ) (alt : ℚ) (width : ℕ), ∀ p ∈ virtualPoints plane alt width, OnVirtualPlane plane p

/-- Projections are positions in images, if there are any. -/
def ProjectsInto (wl hl wr hr : ℕ) (project : V3 ℚ → Option (ℚ × ℚ) × Option (ℚ × ℚ)) : Prop :=
  ∀ p, (∀ q, (project p).1 = some q → 0 < q.1 ∧ q.1 < wl ∧ 0 < q.2 ∧ q.2 < hl) ∧ ∀ q, (project p).2 = some q → 0 < q.1 ∧ q.1 < wr ∧ 0 < q.2 ∧ q.2 < hr

/-- The images of all points that are seen can be made; both have the size of the left one. -/
def ImagesMade : Prop :=
  ∀ (w h : ℕ) project, ProjectsInto w h w h project → ∀ ps, ∃ r, drawAll w w project ps (⟨h, w, fun _ _ => 0⟩, ⟨h, w, fun _ _ => 0⟩) = .ok r

/-- The points of an altitude: `n` of them, as far apart, from three quarters of the altitude on one side to as much on the other. -/
def AcrossTrack (ps : List (V3 ℚ)) (alt : ℚ) (n : ℕ) : Prop :=
  ps.length = n ∧ (∀ p ∈ ps, p.z = alt) ∧ (ps[0]?).map (·.x) = some (-(3 / 4 * alt)) ∧ (ps[n - 1]?).map (·.x) = some (3 / 4 * alt) ∧
    ∀ k a b, ps[k]? = some a → ps[k + 1]? = some b → b.x - a.x = 3 / 2 * alt / (n - 1)

end Oplab.Spec
