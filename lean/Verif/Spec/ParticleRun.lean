import Verif.Model.ParticleRun
import Verif.Spec.StraightRun

/-! What the particle filter should report. -/

namespace Oplab.Spec
open Oplab Real

/-- A vector along the axes of a vehicle with the given roll, pitch and heading (degrees) as north, east, down. -/
noncomputable def northEastDown (rpy u : V3 ℝ) : V3 ℝ := rotZ (rad rpy.z) (rotY (rad rpy.y) (rotX (rad rpy.x) u))

/-- From point `a` to point `b` the vehicle moves with the velocity of `a`, in the direction given by the attitude of `a`. -/
def MovesTo (a b : PfPoint) : Prop :=
  b.north = a.north + (b.t - a.t) * (northEastDown a.rpy a.vel).x ∧
  b.east = a.east + (b.t - a.t) * (northEastDown a.rpy a.vel).y

/-- The last entry of dead reckoning that is not later than `t`. -/
def LatestAt (dr : List PfReading) (t : ℝ) (d : PfReading) : Prop :=
  d ∈ dr ∧ d.t ≤ t ∧ ∀ e ∈ dr, e.t ≤ t → e.t ≤ d.t

/-- The attitude and velocity of the point are those of the entry. -/
def Reports (p : PfPoint) (d : PfReading) : Prop := p.rpy = d.rpy ∧ p.vel = d.vel

/-- Data a filter can be run on: at least two entries, in order of time; at least one fix, in order, none before the first
entry, at other times than those of the entries and with an uncertainty. -/
structure FilterData (g : PfGains) (n : Nat) (dr : List PfReading) (fixes : List PfFix) : Prop where
  particles : 0 < n
  two : 2 ≤ dr.length
  sorted : dr.Pairwise fun a b => a.t < b.t
  some : fixes ≠ []
  ordered : fixes.Pairwise fun a b => a.t ≤ b.t
  after : ∀ f ∈ fixes, ∀ d ∈ dr.head?, d.t < f.t
  apart : ∀ f ∈ fixes, ∀ d ∈ dr, d.t ≠ f.t
  gain : g.usbl ≠ 0
  uncertain : ∀ f ∈ fixes, f.std.x ≠ 0 ∨ f.std.y ≠ 0 ∨ f.std.z ≠ 0

/-- Settings with one factor and one offset per quantity, as printed in the manual. -/
def plainSections (z v o xy : ℝ × ℝ) : PfSections :=
  ⟨[("factor", z.1), ("offset", z.2)], [("factor", v.1), ("offset", v.2)], [("factor", o.1), ("offset", o.2)],
    [("factor", xy.1), ("offset", xy.2)]⟩

/-- Nothing is added to the measurements: the deviations are zero, or all draws are. -/
def NoNoise (sec : PfSections) (draws : Nat → Nat → PfDraws) : Prop :=
  (∀ k i, draws k i = ⟨0, ⟨0, 0, 0⟩, ⟨0, 0, 0⟩⟩) ∨ ∃ xy, sec = plainSections (0, 0) (0, 0) (0, 0) xy

/-- Every point reports the attitude and velocity measured last before it: those of the entry itself, at the time of an entry
of dead reckoning. -/
def ReportsThen (dr : List PfReading) (points : List PfPoint) : Prop :=
  ∀ p ∈ points, ∀ d, LatestAt dr p.t d → Reports p d

/-- The standard deviation the settings give for a value. -/
def configuredStd (fo : ℝ × ℝ) (v : ℝ) : ℝ := fo.1 * |v| + fo.2

/-- `w` is the value `v` with the error that belongs to the draw `r`, if the deviations are multiplied by `gain`. -/
def Spread (fo : ℝ × ℝ) (gain r v w : ℝ) : Prop := w = v + r * (gain * configuredStd fo v)

/-- Depth, angles (degrees) and velocities of a particle are spread by the configured deviations around the entry `d`. -/
structure SpreadAround (s : PfStd) (g : PfGains) (r : PfDraws) (d : PfReading) (p : PfPoint) : Prop where
  depth : Spread s.z 1 r.z d.depth p.depth
  roll : Spread s.ori g.imu r.rpy.x d.rpy.x p.rpy.x
  pitch : Spread s.ori g.imu r.rpy.y d.rpy.y p.rpy.y
  yaw : Spread s.ori g.imu r.rpy.z d.rpy.z p.rpy.z
  vx : Spread s.vel.x g.dvl r.vel.x d.vel.x p.vel.x
  vy : Spread s.vel.y g.dvl r.vel.y d.vel.y p.vel.y
  vz : Spread s.vel.z g.dvl r.vel.z d.vel.z p.vel.z

/-- Settings with a factor and an offset for each axis of the velocity. -/
def axesSections (z o xy : ℝ × ℝ) (v : V3 (ℝ × ℝ)) : PfSections :=
  ⟨[("factor", z.1), ("offset", z.2)],
    [("factor_x", v.x.1), ("offset_x", v.x.2), ("factor_y", v.y.1), ("offset_y", v.y.2), ("factor_z", v.z.1),
      ("offset_z", v.z.2)],
    [("factor", o.1), ("offset", o.2)], [("factor", xy.1), ("offset", xy.2)]⟩

end Oplab.Spec
