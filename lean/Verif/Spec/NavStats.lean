import Verif.Model.NavStats

/-!
What the statistics of an acquisition should be.
-/

namespace Oplab.Spec
open Oplab Real

/-- The row is within the times that were asked for. -/
def WithinTimes (start stop : Option ℝ) (r : StatRow) : Prop :=
  (∀ s, start = some s → s ≤ r.time) ∧ ∀ s, stop = some s → r.time ≤ s

/-- Distance of two rows on the plane. -/
noncomputable def planeDistance (a b : StatRow) : ℝ := sqrt ((b.northing - a.northing) ^ 2 + (b.easting - a.easting) ^ 2)

/-- Length of the track through the positions. -/
noncomputable def trackLength : List StatRow → ℝ
  | a :: b :: rest => planeDistance a b + trackLength (b :: rest)
  | _ => 0

/-- Width of the strip that a camera with a field of view of `alpha` degrees sees from an altitude. -/
noncomputable def swathWidth (alpha altitude : ℝ) : ℝ := 2 * (altitude * tan ((alpha / 2) * (π / 180)))

/-- Surface of rectangles along the track, each as wide as the strip seen at its end. -/
noncomputable def sweptSurface (alpha : ℝ) : List StatRow → ℝ
  | a :: b :: rest => planeDistance a b * swathWidth alpha b.altitude + sweptSurface alpha (b :: rest)
  | _ => 0

open Classical in
/-- Length of the parts of the track between rows that are both below the threshold. -/
noncomputable def lowTrackLength (threshold : ℝ) : List StatRow → ℝ
  | a :: b :: rest => (if a.altitude < threshold ∧ b.altitude < threshold then planeDistance a b else 0) + lowTrackLength threshold (b :: rest)
  | _ => 0

/-- Full property: the distance travelled at the bottom is the length of the parts of the track that are at the bottom. -/
def DistanceAtBottom : Prop :=
  ∀ (threshold alpha : ℝ) (rows : List StatRow) (st : NavStats),
    acquisitionStats threshold alpha none none (some rows) = .ok st → st.distance = lowTrackLength threshold rows

end Oplab.Spec
