import Verif.Model.HybisRun
import Verif.Spec.Hybis
import Verif.Spec.Geometry

/-! What the log of a HyBIS dive says, independent of the parser. -/

namespace Oplab.Spec

/-- The text `t` is the angle `x`: `n` digits of degrees, eight characters of minutes and a letter. -/
def WritesAngle (toFloat : List Char → Res ℚ) (n : ℕ) (t : List Char) (x : ℚ) : Prop :=
  ∃ (d m : List Char) (h : Char) (deg minutes : ℚ), d.length = n ∧ m.length = 8 ∧ t = d ++ m ++ [h] ∧ toFloat d = .ok deg
    ∧ toFloat m = .ok minutes ∧ x = hemisphereSign h * (deg + minutes / 60)

/-- The row records the pose `p`. -/
def Records (toFloat : List Char → Res ℚ) (r : HybisRow) (p : HybisPos) : Prop :=
  (∃ c : DateTime, c.ok = true ∧ c.us = 0 ∧ r.date = slashDate c ∧ r.time = colonTime c ∧ p.time = c.seconds)
  ∧ (∃ t, r.lon = some t ∧ WritesAngle toFloat 3 t p.lon) ∧ WritesAngle toFloat 2 r.lat p.lat
  ∧ p.roll = r.roll ∧ p.pitch = r.pitch ∧ p.heading = r.heading ∧ p.depth = r.depth ∧ p.altitude = r.altitude

/-- The row has no position. -/
def NoFix (r : HybisRow) : Prop := ∃ t, r.lon = some t ∧ t.length < 11

/-- The rows of a log that record the poses `ps`, with any rows without position between them. -/
inductive LogOf (toFloat : List Char → Res ℚ) : List HybisRow → List HybisPos → Prop
  | nil : LogOf toFloat [] []
  | skip {r rows ps} : NoFix r → LogOf toFloat rows ps → LogOf toFloat (r :: rows) ps
  | fix {r p rows ps} : Records toFloat r p → LogOf toFloat rows ps → LogOf toFloat (r :: rows) (p :: ps)

/-- The vehicle at time `t`, if all its coordinates change steadily: with values `a` at time 0 and rates `v`. -/
def steadyPose (a v : HybisPos) (t : ℚ) : HybisPos :=
  ⟨t, a.roll + v.roll * t, a.pitch + v.pitch * t, a.heading + v.heading * t, a.depth + v.depth * t, a.altitude + v.altitude * t,
    a.lon + v.lon * t, a.lat + v.lat * t⟩

/-- Full property: the command converts every log with at least two poses, in order of time, for every reference that is a number. -/
def HybisCommandWorks : Prop :=
  ∀ (toFloat : List Char → Res ℚ) (metres : ℚ → ℚ → ℚ → ℚ → ℝ × ℝ) (rows : List HybisRow) (ps : List HybisPos) (lat lon : List Char)
    (mtime : ℕ → ℚ) (files : List ℕ), LogOf toFloat rows ps → 2 ≤ ps.length → (ps.map HybisPos.time).Pairwise (· < ·) →
    (∃ x, toFloat lat = .ok x) → (∃ y, toFloat lon = .ok y) →
    ∃ r, hybisCommand toFloat metres rows (some lat) (some lon) mtime files = .ok r

end Oplab.Spec
