import Verif.Model.ParticleRun

/-! # C278: moved dives in the particle filter -/

namespace Oplab.Spec
open Oplab Real

/-- A dive made `delay` seconds later, turned by `turn` degrees about the origin of the map and then shifted by `north`,
`east` and `down` metres. -/
structure Elsewhere where
  delay : ℝ
  turn : ℝ
  north : ℝ
  east : ℝ
  down : ℝ

namespace Elsewhere
variable (m : Elsewhere)

/-- Northing and easting of a place of the dive, in the moved dive. -/
noncomputable def northOf (n e : ℝ) : ℝ := cos (m.turn * π / 180) * n - sin (m.turn * π / 180) * e + m.north
noncomputable def eastOf (n e : ℝ) : ℝ := sin (m.turn * π / 180) * n + cos (m.turn * π / 180) * e + m.east

/-- An entry of dead reckoning of the moved dive: another heading, the same velocities in the frame of the vehicle. -/
noncomputable def reading (d : PfReading) : PfReading :=
  ⟨d.t + m.delay, m.northOf d.north d.east, m.eastOf d.north d.east, d.depth + m.down, ⟨d.rpy.x, d.rpy.y, d.rpy.z + m.turn⟩, d.vel, d.alt⟩

/-- A fix of the moved dive, as uncertain as the fix of the dive. -/
noncomputable def fix (f : PfFix) : PfFix :=
  ⟨f.t + m.delay, m.northOf f.north f.east, m.eastOf f.north f.east, f.depth + m.down, f.std⟩

/-- A point of the solution for the moved dive. -/
noncomputable def point (p : PfPoint) : PfPoint :=
  ⟨p.t + m.delay, m.northOf p.north p.east, m.eastOf p.north p.east, p.depth + m.down, ⟨p.rpy.x, p.rpy.y, p.rpy.z + m.turn⟩, p.vel, p.alt⟩

/-- The result of the filter for the moved dive: moved points, particles drawn again after the same fixes. -/
noncomputable def solution (r : List PfPoint × List ℝ) : List PfPoint × List ℝ := (r.1.map m.point, r.2.map (· + m.delay))

end Elsewhere

/-- The noise of the filter does not depend on what `m` changes, and no fix is used before the first entry of dead
reckoning: depths are only changed if their deviation is the same at any depth, headings only if it is the same at any
heading. -/
def NoiseAlike (m : Elsewhere) (sec : PfSections) (dr : List PfReading) (fixes : List PfFix) : Prop :=
  (m.down = 0 ∨ sec.z.lookup "factor" = some 0) ∧ (m.turn = 0 ∨ sec.orientation.lookup "factor" = some 0) ∧
    ((m.down = 0 ∧ m.turn = 0) ∨ ∀ d ∈ dr.head?, ∀ f ∈ fixes, d.t < f.t)

/-- With the same random draws the solution of a moved dive is the moved solution. -/
def MovesWithDive : Prop :=
  ∀ (m : Elsewhere) (sec : PfSections) (g : PfGains) (draws : Nat → Nat → PfDraws) (u : Nat → ℝ) (n : Nat) (dr : List PfReading)
    (fixes : List PfFix),
    filterRun sec g draws u n (dr.map m.reading) (fixes.map m.fix) = (filterRun sec g draws u n dr fixes).map m.solution

end Oplab.Spec
