import Mathlib.Algebra.Order.Field.Rat
import Verif.Model.StereoRun

/-! What the stereo records of a dive are, from the names in the listing and the times in them. -/

namespace Oplab.Spec
open Oplab

/-- The images with the times in their names. -/
def TimedAs (time : List Char → Res ℚ) (pics : List StereoPic) (timed : List (StereoPic × ℚ)) : Prop :=
  List.Forall₂ (fun p q => q.1 = p ∧ time p.name = .ok q.2) pics timed

/-- `r` is the image of `right` nearest in time to `l`; of several the one listed first. -/
def NearestOf (l : StereoPic × ℚ) (right : List (StereoPic × ℚ)) (r : StereoPic × ℚ) : Prop :=
  ∃ i : ℕ, right[i]? = some r ∧ ∀ (j : ℕ) (r' : StereoPic × ℚ), right[j]? = some r' →
    |l.2 - r.2| ≤ |l.2 - r'.2| ∧ (j < i → |l.2 - r.2| < |l.2 - r'.2|)

/-- There is an image of the second camera within 50 ms. -/
def HasPartner (right : List (StereoPic × ℚ)) (l : StereoPic × ℚ) : Prop := ∃ r ∈ right, |l.2 - r.2| ≤ 1 / 20

open Classical in
/-- One record for each image of the first camera that has a partner, in the order of the listing, with the nearest image. -/
def PairsOf (left right : List (StereoPic × ℚ)) (out : List StereoShot) : Prop :=
  List.Forall₂ (fun l s => s.pic1 = l.1 ∧ s.t1 = l.2 ∧ NearestOf l right (s.pic2, s.t2))
    (left.filter fun l => HasPartner right l) out

open Classical in
/-- The images of a camera of an ACFR folder: the listed names that contain the label, without text files and hidden files. -/
def AcfrPicsOf (d : AcfrDive) (label : List Char) (pics : List StereoPic) : Prop :=
  pics = (d.names.filter fun n => label <:+: n ∧ ¬ ".txt".toList <:+: n ∧ ¬ "._".toList <:+: n).map
    fun n => ⟨n, d.folder ++ "/".toList ++ n⟩

end Oplab.Spec
