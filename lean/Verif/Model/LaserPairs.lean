import Verif.Model.Laser
import Verif.Model.Biocam

/-!
Model of the choice of images in `cal` of /repo/src/auv_cal/laser_calibrator.py (L984-1039), from the names of the images.
-/

namespace Oplab

/-- laser_calibrator.py L991-993: the name a left image is looked for under. -/
def laserName (name : List Char) : List Char := if hasText ['i', 'm', 'a', 'g', 'e'] name then name.drop 5 else name

/-- laser_calibrator.py L989-996: pairs of equal names, as positions in the two lists. -/
def syncByName (left right : List (List Char)) : List (ℕ × ℕ) :=
  (List.range left.length).flatMap fun i => (List.range right.length).filterMap fun j =>
    if (left[i]?).map laserName = right[j]? then some (i, j) else none

/-- laser_calibrator.py L998-1009: the times of the computer in the names. -/
def laserStamps (names : List (List Char)) : Res (List ℚ) := names.mapM fun n => (biocamStamp n 0 0).map Prod.fst

/-- laser_calibrator.py L984-1024: the pairs that belong together. The first name decides how they are found. -/
def laserSync (left right : List (List Char)) : Res (List (ℕ × ℕ)) :=
  match left with
  | [] => .error .indexError
  | l :: _ =>
    if l.length < 26 then .ok (syncByName left right)
    else do
      let a ← laserStamps left
      let b ← laserStamps right
      syncByStamp a b

/-- laser_calibrator.py L984-1039: the pairs that are processed, as positions in the two lists of names (without ending). -/
def calViews (left right : List (List Char)) : Res (List (ℕ × ℕ)) := do
  let sync ← laserSync left right
  if 500 < left.length then (spread 500 left.length).mapM fun s : ℕ => pyGet sync (s : Int)
  else .ok ((List.range left.length).zip (List.range right.length))

end Oplab
