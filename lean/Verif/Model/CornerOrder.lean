import Verif.Model.CameraCal

/-!
# Numbering of the corners of a chessboard

/repo/src/auv_cal/camera_calibrator.py. The detector (`cv2.findChessboardCorners`) and the refinement of a corner (`cv2.cornerSubPix`) are
parameters. Lines refer to that file.
-/

namespace Oplab

/-- camera_calibrator.py L181-190 `numpy.rot90(corners.reshape(n, n, 2), k).reshape(n * n, 1, 2)` for `k` = 1: entry (i, j) is the former entry
(j, n - 1 - i). -/
def rotateOnce {P : Type} (n : ℕ) (l : List P) : Res (List P) :=
  if l.length ≠ n * n then .error .valueError
  else ((List.range n).flatMap fun i => (List.range n).map fun j => j * n + (n - 1 - i)).mapM fun k : ℕ => pyGet l (k : Int)

/-- camera_calibrator.py L187-190: the same for `k` = 3: entry (i, j) is the former entry (n - 1 - j, i). -/
def rotateThrice {P : Type} (n : ℕ) (l : List P) : Res (List P) :=
  if l.length ≠ n * n then .error .valueError
  else ((List.range n).flatMap fun i => (List.range n).map fun j => (n - 1 - j) * n + i).mapM fun k : ℕ => pyGet l (k : Int)

section
variable {K : Type} [Field K] [LinearOrder K]

/-- camera_calibrator.py L169-190: the order of the corners. -/
def orderCorners (rows cols : ℕ) (l : List (K × K)) : Res (List (K × K)) := do
  let first ← pyGet l 0
  let last ← pyGet l (-1)
  if rows ≠ cols then
    if last.2 < first.2 then .ok l.reverse else .ok l
  else
    let right : Bool := decide (0 ≤ last.1 - first.1)
    let down : Bool := decide (0 ≤ last.2 - first.2)
    if right && down then .ok l
    else if !(right || down) then .ok l.reverse
    else if right then rotateOnce rows l
    else rotateThrice rows l

/-- camera_calibrator.py L134-217 `_get_corners` with `refine`: `found` is what the detector finds in the image of `w` by `h` pixels, `snap`
moves a corner within a radius. The result is `none` where the code returns `ok = False`. -/
def boardCorners [FloorRing K] (dist : K × K → K × K → K) (snap : ℤ → K × K → K × K) (w h : K) (rows cols : ℕ)
    (found : Option (List (K × K))) : Res (Option (List (K × K))) :=
  match found with
  | none => .ok none
  | some l => do
    let o ← orderCorners rows cols l
    if cornersInside w h l then do
      let r ← refineRadius dist rows cols o
      .ok (some (o.map (snap r)))
    else .ok none

/-- camera_calibrator.py L420-458 `get_corners` for chessboards: the first board that is found. `find` is the detector, for columns and rows. -/
def firstBoard [FloorRing K] (dist : K × K → K × K → K) (snap : ℤ → K × K → K × K) (w h : K)
    (find : ℕ → ℕ → Option (List (K × K))) : List (Board K) → Res (Option (List (K × K) × Board K))
  | [] => .ok none
  | b :: bs => do
    match ← boardCorners dist snap w h b.rows b.cols (find b.cols b.rows) with
    | some l => .ok (some (l, b))
    | none => firstBoard dist snap w h find bs

/-- What is given to the stereo solver for one pair of views: corners on the left and on the right and the points of the board
(camera_calibrator.py L1240-1245). -/
structure StereoView (K : Type) where
  left : List (K × K)
  right : List (K × K)
  board : List (K × K)

/-- camera_calibrator.py L1107-1135 and L1240-1245: a pair of views for the solver; the board is that of the left detection. -/
def stereoView (l r : List (K × K) × Board K) : StereoView K := ⟨l.1, r.1, objectPoints .chessboard l.2⟩

end

end Oplab
