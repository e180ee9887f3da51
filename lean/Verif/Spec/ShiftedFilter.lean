import Verif.Model.Ekf

/-! # C277: shifted and delayed dives in the Kalman filter -/

namespace Oplab.Spec
open Oplab

/-- A dive made `delay` seconds later, at a place shifted by `north`, `east` and `down` metres. -/
structure Shift where
  delay : ℝ
  north : ℝ
  east : ℝ
  down : ℝ

namespace Shift
variable (d : Shift)

/-- A state (position, angles, velocities, turn rates) at the shifted place. -/
def place (s : KVec) : KVec := fun i => if i = 0 then s i + d.north else if i = 1 then s i + d.east else if i = 2 then s i + d.down else s i

/-- An estimate of the shifted dive: later, at the shifted place, with the same uncertainty. -/
def estimate (s : EState) : EState := ⟨s.time + d.delay, d.place s.state, s.cov⟩

/-- Measurements of the shifted dive. -/
def orient (o : KOrient) : KOrient := { o with time := o.time + d.delay }
def usbl (u : KUsbl) : KUsbl := { u with time := u.time + d.delay, north := u.north + d.north, east := u.east + d.east, depth := u.depth + d.down }
def depth (x : KDepth) : KDepth := { x with time := x.time + d.delay, depth := x.depth + d.down }
def dvl (v : KDvl) : KDvl := { v with time := v.time + d.delay }

/-- All measurements, and the times of the images, of the shifted dive. -/
def measured (q : Queues) : Queues :=
  ⟨q.orient.map d.orient, q.usbl.map d.usbl, q.depth.map d.depth, q.dvl.map d.dvl, q.stamps.map (· + d.delay)⟩

/-- The settings for the shifted dive: it ends later. -/
def settings (c : EkfCfg) : EkfCfg := { c with endT := c.endT + d.delay }

/-- The filter in the shifted dive: the same counts of measurements used and rejected, the rejected ones being later. -/
def filter (e : Ekf) : Ekf :=
  { e with state := d.place e.state, lastT := e.lastT + d.delay, hist := e.hist.map d.estimate
           rejected := fun k => (e.rejected k).map fun l => l.map (· + d.delay) }

end Shift

/-- Fixes and depths come with their uncertainties; depths need not if they are not shifted. -/
def WithUncertainties (d : Shift) (q : Queues) : Prop :=
  (∀ u ∈ q.usbl, 0 < u.northStd) ∧ ∀ x ∈ q.depth, 0 < x.std ∨ d.down = 0

/-- A fix is as uncertain wherever the dive is made. -/
def SameUncertainty : Prop :=
  ∀ (d : Shift) (c : EkfStd) (u : KUsbl) (rpy off : V3 ℝ), (fromUsbl c (d.usbl u) rpy off).cov = (fromUsbl c u rpy off).cov

end Oplab.Spec
