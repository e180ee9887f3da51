import Verif.Model.FilterPlots
import Mathlib.Data.Nat.Notation

/-! What the plots of the filters should show. -/

namespace Oplab.Spec
open Oplab

/-- Three columns show an entry of all estimates, times a factor, and its standard deviation: the root of its variance. -/
def ShowsEntry (l : List EState) (factor : ℝ) (i : Ix) (times values stds : List ℝ) : Prop :=
  times.length = l.length ∧ values.length = l.length ∧ stds.length = l.length ∧
    ∀ (k : ℕ) (s : EState), l[k]? = some s → times[k]? = some s.time ∧ values[k]? = some (factor * s.state i) ∧
      ∃ d, stds[k]? = some d ∧ 0 ≤ d ∧ d ^ 2 = factor ^ 2 * s.cov i i

/-- Exactly one line has this name, and it shows these values against the times. -/
def DrawnAs (ts : List FilterTrace) (name : String) (times values : List ℝ) : Prop :=
  ∃ t ∈ ts, t.name = name ∧ t.xs = times ∧ t.ys = values ∧ ∀ t' ∈ ts, t'.name = name → t' = t

/-- A quantity is drawn with its bounds, in one field of the grid. -/
def DrawnWithBounds (ts : List FilterTrace) (name : String) (times values stds : List ℝ) : Prop :=
  DrawnAs ts (name ++ "+sigma") times ((values.zip stds).map fun p => p.1 + p.2) ∧
    DrawnAs ts (name ++ "-sigma") times ((values.zip stds).map fun p => p.1 - p.2)

/-- The points of a sensor in the plot of rejected measurements. -/
def pointsOf (plot : List (String × List (ℝ × String))) (sensor : String) : List ℝ :=
  (plot.flatMap (·.2)).filterMap fun p => if p.2 = sensor then some p.1 else none

/-- Each sensor of which a measurement was rejected is a key, once. -/
def KeysOf (keys : List String) (rejected : String → Option (List ℝ)) : Prop :=
  keys.Nodup ∧ ∀ k, k ∈ keys ↔ (rejected k).isSome = true

/-- The plot of the uncertainty of the particle filter shows a value for each time. -/
def SpreadShown : Prop := ∀ times : List ℝ, ∀ t ∈ pfUncertaintyPlot times, t.ys.length = times.length

/-- A line is drawn in this field of the grid. -/
def DrawnIn (ts : List FilterTrace) (name : String) (row col : ℕ) : Prop := ∃ t ∈ ts, t.name = name ∧ t.row = row ∧ t.col = col ∧ ∀ t' ∈ ts, t'.name = name → t' = t

end Oplab.Spec
