import Verif.Model.PathPlots
import Mathlib.Data.List.Sort

/-! What plots of paths should show. -/

namespace Oplab.Spec
open Oplab

/-- The path a name stands for. -/
def pathNamed (i : PathInput) : List (String × List PathPoint) :=
  [("dr_camera1", i.camera1), ("ekf_camera1", i.camera1Ekf), ("dr_centre", i.drCentre), ("dr_dvl", i.drDvl), ("ekf_centre", i.ekfCentre),
    ("usbl_without_distance_filter", i.usblAll), ("usbl", i.usbl), ("pf_camera1", i.camera1Pf), ("pf_centre", i.pfCentre), ("pf_dvl", i.pfDvl)]

/-- Eastings and northings of a path. -/
def Draws (points : List (ℚ × ℚ)) (l : List PathPoint) : Prop :=
  points.length = l.length ∧ ∀ (k : ℕ) (p : PathPoint), l[k]? = some p → points[k]? = some (p.east, p.north)

/-- Paths are drawn under their own names. -/
def NamesRight : Prop :=
  ∀ i f, (plotPaths i).path = some f → ∀ t ∈ f, (∃ k : ℕ, t.name = "PF_Resampling" ++ toString k) ∨
    ∃ l, (t.name, l) ∈ pathNamed i ∧ Draws t.points l

/-- The times of a path do not go back. -/
def PathInOrder (l : List PathPoint) : Prop := l.Pairwise fun p q => p.time ≤ q.time

/-- Both files are written. -/
def PathsDrawn : Prop := ∀ i : PathInput, 1 < i.camera1.length → ((plotPaths i).path).isSome ∧ ((plotPaths i).slider).isSome

/-- auv_path.html is written. -/
def PathDrawn : Prop := ∀ i : PathInput, 1 < i.camera1.length → ((plotPaths i).path).isSome

/-- The paths with a slider, if they have more than one position. -/
def pathsShown (i : PathInput) : List (String × List PathPoint) :=
  [("dr_camera1", i.camera1), ("ekf_camera1", i.camera1Ekf), ("usbl", i.usbl)].filter fun l => decide (1 < l.2.length)

/-- Their positions. -/
def pointsShown (i : PathInput) : List PathPoint := (pathsShown i).flatMap (·.2)

/-- The last frame shows the whole of the paths. -/
def EndShown : Prop :=
  ∀ i fs t f, (plotPaths i).slider = some fs → fs.getLast? = some (t, f) → ∀ l ∈ pathsShown i, ∃ tr ∈ f, tr.name = l.1 ∧ Draws tr.points l.2

end Oplab.Spec
