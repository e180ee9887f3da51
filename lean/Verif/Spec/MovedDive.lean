import Verif.Model.DrRun

/-! # C276: delayed, turned and shifted dives -/

namespace Oplab.Spec
open Oplab Real

/-- A dive made `delay` seconds later, in a direction turned by `turn` degrees, at a place shifted by `north` and `east` metres. -/
structure Move where
  delay : ℝ
  turn : ℝ
  north : ℝ
  east : ℝ

/-- The northing after the move. -/
noncomputable def Move.n (m : Move) (n e : ℝ) : ℝ := cos (m.turn * π / 180) * n - sin (m.turn * π / 180) * e + m.north

/-- The easting after the move. -/
noncomputable def Move.e (m : Move) (n e : ℝ) : ℝ := sin (m.turn * π / 180) * n + cos (m.turn * π / 180) * e + m.east

/-- The heading after the move, but for full turns. -/
def Move.Heading (m : Move) (y y' : ℝ) : Prop := ∃ k : ℤ, y' = y + m.turn + 360 * k

/-- A compass shows headings from 0 to 360 degrees. -/
def Compass (y : ℝ) : Prop := 0 ≤ y ∧ y < 360

/-- An orientation measured in the dive and the moved dive. -/
structure Move.Attitude (m : Move) (o o' : Oplab.Attitude ℝ) : Prop where
  time : o'.t = o.t + m.delay
  tilt : o'.roll = o.roll ∧ o'.pitch = o.pitch
  heading : m.Heading o.yaw o'.yaw
  compass : Compass o.yaw ∧ Compass o'.yaw

/-- The other measurements are the same, but later. -/
def Move.Velocity (m : Move) (v v' : VelMeas ℝ) : Prop := v' = { v with t := v.t + m.delay }
def Move.Altitude (m : Move) (a a' : ℝ × ℝ) : Prop := a' = (a.1 + m.delay, a.2)
def Move.Depth (m : Move) (d d' : DepthSample ℝ) : Prop := d' = { d with t := d.t + m.delay }

/-- A fix of the dive and the moved dive. -/
structure Move.Fix (m : Move) (u u' : TrackPt ℝ) : Prop where
  time : u'.t = u.t + m.delay
  north : u'.n = m.n u.n u.e
  east : u'.e = m.e u.n u.e

/-- A pose of the vehicle in the dive and the moved dive. -/
structure Move.Centre (m : Move) (c c' : Oplab.Centre) : Prop where
  time : c'.t = c.t + m.delay
  tilt : c'.roll = c.roll ∧ c'.pitch = c.pitch
  heading : m.Heading c.yaw c'.yaw
  speed : c'.vx = c.vx ∧ c'.vy = c.vy ∧ c'.vz = c.vz
  north : c'.northings = m.n c.northings c.eastings
  east : c'.eastings = m.e c.northings c.eastings
  vertical : c'.altitude = c.altitude ∧ c'.depth = c.depth

/-- A pose of a camera in the dive and the moved dive. -/
structure Move.Pose (m : Move) (p p' : SensorPose) : Prop where
  tilt : p'.roll = p.roll ∧ p'.pitch = p.pitch
  heading : m.Heading p.yaw p'.yaw
  speed : p'.vx = p.vx ∧ p'.vy = p.vy ∧ p'.vz = p.vz
  north : p'.northings = m.n p.northings p.eastings
  east : p'.eastings = m.e p.northings p.eastings
  vertical : p'.altitude = p.altitude ∧ p'.depth = p.depth

/-- An image of the dive and the moved dive: the time, and the pose if it gets one. -/
def Move.Image (m : Move) (x x' : ℝ × Option SensorPose) : Prop :=
  x'.1 = x.1 + m.delay ∧
  match x.2, x'.2 with
  | some p, some p' => m.Pose p p'
  | none, none => True
  | _, _ => False

/-- Both fail in the same way, or both succeed with related results. -/
def Alike {α β : Type} (R : α → β → Prop) : Res α → Res β → Prop
  | .ok a, .ok b => R a b
  | .error e, .error f => e = f
  | _, _ => False

/-- No two headings, at most two measurements apart, are opposite. -/
def NoTurnabout (os : List (Oplab.Attitude ℝ)) : Prop :=
  ∀ i j (a b : Oplab.Attitude ℝ), i < j → j ≤ i + 2 → os[i]? = some a → os[j]? = some b → |b.yaw - a.yaw| ≠ 180

/-- No two headings of the dive are opposite. -/
def NoOpposite (os : List (Oplab.Attitude ℝ)) : Prop := ∀ a ∈ os, ∀ b ∈ os, |b.yaw - a.yaw| ≠ 180

/-- Between any two poses with headings from a compass, a camera's pose is moved like the poses. -/
def MovedBetween : Prop :=
  ∀ (m : Move) (m2ll : ℝ → ℝ → ℝ × ℝ) (origin mount : V3 ℝ) (q : ℝ) (a b a' b' : Oplab.Centre), m.Centre a a' → m.Centre b b' →
    Compass a.yaw → Compass a'.yaw → Compass b.yaw → Compass b'.yaw →
    m.Pose (interpolateSensor m2ll origin mount q a b) (interpolateSensor m2ll origin mount (q + m.delay) a' b')

end Oplab.Spec
