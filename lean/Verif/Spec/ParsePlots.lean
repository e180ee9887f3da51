import Verif.Model.ParsePlots

/-! What the overview of a dive should show. -/

namespace Oplab.Spec
open Oplab

/-- The records of a category and frame, in the order of the file. -/
def recordsOf (data : List (Option PlotRec)) (c f : String) : List PlotRec :=
  data.filterMap fun
    | none => none
    | some r => if r.category = c ∧ r.frame = f then some r else none

/-- The differences of times that follow each other. -/
def gapsOf : List ℚ → List ℚ
  | a :: b :: l => (b - a) :: gapsOf (b :: l)
  | _ => []

/-- The first difference of at least two milliseconds, or else the last one. -/
def shownGap (l : List ℚ) : ℚ := ((gapsOf l).find? fun d => decide (2 / 1000 ≤ d)).getD ((gapsOf l).getLast?.getD 0)

/-- The time that a point of the history shows. -/
def shownTime (p : Nat × Text) : ℚ := p.1 + (p.2.foldl (fun n c => n * 10 + (c.toNat - 48)) 0 : ℕ) / 10 ^ 6

/-- Points show times to the microsecond. -/
def TimesShown : Prop := ∀ t : ℚ, 0 ≤ t → |shownTime (timeLabel t) - t| ≤ 1 / 2 / 10 ^ 6

/-- The overview of a dive with an origin and measurements is drawn. -/
def AlwaysDrawn : Prop :=
  ∀ data : List (Option PlotRec), 2 ≤ data.length → none ∉ data → ∃ s f t, parsePlots data = .drawn s f t

/-- If the command ends without an error, all dives were parsed. -/
def ExitMeansDone : Prop := ∀ ds : List (List (Option PlotRec)), (overviewDives ds).2 = 0 → (overviewDives ds).1 = ds.length

end Oplab.Spec
