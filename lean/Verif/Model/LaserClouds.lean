import Verif.Model.Laser
import Verif.Model.CsvFiles

/-!
Model of the files that a laser calibration leaves beside its results, /repo/src/auv_cal/laser_calibrator.py: clouds of
points and pictures with the detections.
-/

namespace Oplab

/-- The blanks before the lines of the header; they are part of the string. (laser_calibrator.py L575-581) -/
def plyIndent : Text := List.replicate 18 ' '

/-- laser_calibrator.py L575-583: the header for `n` points. -/
def plyHeader (n : ℕ) : List Text :=
  ["ply".toList, plyIndent ++ "format ascii 1.0".toList,
    plyIndent ++ "element vertex ".toList ++ Nat.toDigits 10 n, plyIndent ++ "property float x".toList,
    plyIndent ++ "property float y".toList, plyIndent ++ "property float z".toList, plyIndent ++ "end_header".toList]

/-- laser_calibrator.py L590: one point; `fmt` is `{:.5f}`. -/
def plyPoint {K : Type} (fmt : K → Text) (p : V3 K) : Text := fmt p.x ++ ' ' :: fmt p.y ++ ' ' :: fmt p.z

/-- laser_calibrator.py L565-590 `save_cloud`: the text written. -/
def plyText {K : Type} (fmt : K → Text) (cloud : List (V3 K)) : Text :=
  (plyHeader cloud.length ++ cloud.map (plyPoint fmt)).flatMap (· ++ ['\n'])

/-- Which cloud a file holds: `points`, `points_b`, `points_rs`, `points_b_rs`. (laser_calibrator.py L1145, L1150, L1165,
L1187) -/
inductive CloudFile
  | points
  | pointsB
  | pointsRs
  | pointsBRs
  deriving DecidableEq

/-- laser_calibrator.py L1145-1188: the name of a file of the camera. -/
def CloudFile.name (camera : Text) (f : CloudFile) : Text :=
  (match f with
    | .points => "points_".toList
    | .pointsB => "points_b_".toList
    | .pointsRs => "points_rs_".toList
    | .pointsBRs => "points_b_rs_".toList) ++ camera ++ ".ply".toList

/-- What is left of the clouds: the files, in the order written, and the points that the planes are fitted to.
(laser_calibrator.py L1143-1195) -/
structure CloudRun (V : Type) where
  files : List (CloudFile × List V)
  fitted : List V
  fittedB : Option (List V)

/-- laser_calibrator.py L1154-1173 (and L1175-1195): the points that a plane is fitted to and those of the file.  `strat` is
`z_stratified_sampling`, `sample` is `random.sample`. -/
def cloudFit {V : Type} (maxCloud : ℕ) (strat : List V → Res (List V)) (sample : ℕ → List V → List V) (cloud : List V) :
    Res (List V × List V) := do
  let filt ← strat cloud
  .ok (filt, sample (min filt.length maxCloud) filt)

/-- laser_calibrator.py L1135-1195 `cal`, after triangulation, for the clouds of the two lines. -/
def cloudRun {V : Type} (two : Bool) (maxCloud : ℕ) (strat : List V → Res (List V)) (sample : ℕ → List V → List V)
    (top bottom : List V) : Res (CloudRun V) := do
  let a ← cloudFit maxCloud strat sample top
  if two then do
    let b ← cloudFit maxCloud strat sample bottom
    .ok ⟨[(.points, top), (.pointsB, bottom), (.pointsRs, a.2), (.pointsBRs, b.2)], a.1, some b.1⟩
  else .ok ⟨[(.points, top), (.pointsRs, a.2)], a.1, none⟩

/-- The files of one pair of images: detections and pictures, left and right. (laser_calibrator.py L252-267, L467-470) -/
structure PairFilesSt (P : Type) where
  left : Option (LaserFile P)
  right : Option (LaserFile P)
  leftPic : Option (List P × List P)
  rightPic : Option (List P × List P)

/-- laser_calibrator.py L264-318 `draw_laser`: a picture is known by the top and bottom detections drawn into it. -/
def drawLaser {P : Type} (l r : List P × List P) (pics : Option (List P × List P) × Option (List P × List P)) :
    Option (List P × List P) × Option (List P × List P) :=
  if pics.1.isNone || pics.2.isNone then (some l, some r) else pics

/-- laser_calibrator.py L519-562 `get_laser_pixels_in_image_pair`: the detections (left, right) and the files afterwards;
`foundL` and `foundR` is what the detector finds with the present settings. -/
def pairRun {P : Type} (overwrite two : Bool) (foundL foundR : List P × List P) (s : PairFilesSt P) :
    Res (((List P × List P) × (List P × List P)) × PairFilesSt P) := do
  let l ← laserPixels overwrite two foundL.1 foundL.2 s.left
  let r ← laserPixels overwrite two foundR.1 foundR.2 s.right
  let pics := drawLaser l.1 r.1 (s.leftPic, s.rightPic)
  .ok ((l.1, r.1), ⟨some l.2, some r.2, pics.1, pics.2⟩)

end Oplab
