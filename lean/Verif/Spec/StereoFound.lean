import Verif.Spec.ColourRun
import Verif.Model.StereoFound

/-! # C274: when a stereo calibration is found -/

namespace Oplab.Spec

/-- How much the descriptions of two views differ. -/
def pairDistance : List ℝ → List ℝ → ℝ
  | a :: as, b :: bs => |a - b| + pairDistance as bs
  | _, _ => 0

/-- The pairs that a stereo calibration is computed from: some of the pairs, in order, whose left views differ by more than 0.12; the others are
within 0.12 of one of them. -/
structure DistinctPairs {V : Type} (params : V → List ℝ) (common used : List V) : Prop where
  some_of : used.Sublist common
  differ : used.Pairwise fun a b => 12 / 100 < pairDistance (params b) (params a)
  rest : ∀ x ∈ common, x ∈ used ∨ ∃ v ∈ used, pairDistance (params x) (params v) ≤ 12 / 100

/-- A stereo calibration computed from at least eight of the pairs, and no worse than the one from all of them. -/
structure GoodStereo {V T : Type} (solve : List V → ℝ × T) (used : List V) (c : StereoCal ℝ V T) : Prop where
  some_of : c.views.Sublist used
  enough : 8 ≤ c.views.length
  solved : solve c.views = (c.error, c.pose)
  no_worse : c.error ≤ (solve used).1

/-- The error in rows between the corners of a pair after rectification; 1000 if they are not found. -/
def pairCost {V T : Type} (found : T → V → Option ℝ) (t : T) (v : V) : ℝ := (found t v).getD 1000

/-- C274 in full: eight pairs that differ from each other are enough for a calibration. -/
def EightPairsAreEnough : Prop :=
  ∀ (V T : Type) (params : V → List ℝ) (solve : List V → ℝ × T) (found : T → V → Option ℝ) (common : List V),
    common.Pairwise (fun a b => 12 / 100 < pairDistance (params b) (params a)) → 8 ≤ common.length →
    ∃ c t, stereoFromJson params solve found mean deviation common = .ok (some c, t)

end Oplab.Spec
