import Verif.Model.Basic
import Mathlib.Data.Nat.Notation

/-! # Calibration files

`/repo/src/auv_cal/calibration.py`: which calibration files are written by the commands `mono`, `stereo` and `laser`. Line
numbers refer to this file. Image processing and solvers are parameters (`CalTools`). The configuration is assumed to have
all its keys, so it is reduced to the names of the cameras. -/

namespace Oplab

/-- The calibration folder: the calibrations (`.yaml`) and detections (`.json`) by stem of the file name. -/
structure CalState (C D : Type) where
  yaml : String → Option C
  json : String → Option D

/-- calibration.py L261-281 `Calibrator.__init__`: the options. -/
structure CalOptions where
  fo : Bool
  foa : Bool
  suffix : String
  deriving DecidableEq

/-- calibration.py L276-281 of `Calibrator.__init__`: `-FF` implies `-F`, and a suffix starts with an underscore. -/
def calOptions (force forceAll : Bool) (suffix : String) : CalOptions :=
  ⟨force || forceAll, forceAll, if suffix ≠ "" ∧ suffix.toList.head? ≠ some '_' then "_" ++ suffix else suffix⟩

/-- What the code calls: the number of images of a camera (L87-89, L133-142), the detections in them (`none` when the pattern is
not found), possibly after resizing to the size in another calibration (L96-97, L159-169); the calibration from detections
(L99-112); the comparison of the image sizes (L150); the stereo calibration (L175-190); the images of the laser (L212-221);
the laser planes (L234-245); whether there are two lasers (L240-242); whether the folders of laser images exist (L625-640). -/
structure CalTools (C D : Type) where
  images : String → ℕ
  detect : String → Option C → Option D
  solve : D → Option C → C
  sameSize : C → C → Bool
  stereo : C → C → D → D → Option C
  laserImages : ℕ
  laser : C → Option (C × C)
  twoLasers : Bool
  laserFolders : Bool

/-- A file is written. -/
def putFile {A : Type} (f : String → Option A) (k : String) (a : A) : String → Option A := fun x => if x = k then some a else f x

/-- The state when the program ends or fails, with the error. -/
abbrev CalRun (C D : Type) := CalState C D × Option Err

/-- Statements after one that may have failed. -/
def andThen {C D : Type} (o : CalRun C D) (f : CalState C D → CalRun C D) : CalRun C D :=
  match o.2 with
  | some e => (o.1, some e)
  | none => f o.1

/-- calibration.py L322-324. -/
def monoFile (name suffix : String) : String := "mono_" ++ name ++ suffix

/-- calibration.py L363-365. -/
def stereoFile (left right suffix : String) : String := "stereo_" ++ left ++ "_" ++ right ++ suffix

/-- calibration.py L576-582. -/
def laserFile (which name suffix : String) : String := "laser_calibration_" ++ which ++ "_" ++ name ++ suffix

section
variable {C D : Type} (t : CalTools C D)

/-- calibration.py L71-114 `calibrate_mono`, writing the files `out.json` and `out.yaml`.  If the pattern is not found, `collect_corners` writes an
image that is `None` before it raises `CalibrationException` (camera_calibrator.py L667-670), so that OpenCV raises an error that is not caught
(here `valueError`; see `Model/CollectCorners`). -/
def calibrateMono (name out : String) (target : Option C) (foa : Bool) (s : CalState C D) : CalRun C D :=
  if t.images name < 8 then (s, some .quit)
  else
    match (if foa then none else s.json out) with
    | some d => ({ s with yaml := putFile s.yaml out (t.solve d target) }, none)
    | none =>
      match t.detect name target with
      | some d => (⟨putFile s.yaml out (t.solve d target), putFile s.json out d⟩, none)
      | none => (s, some .valueError)

/-- calibration.py L175-192: the stereo calibration is written unless it raises `CalibrationException`. -/
def writeStereo (cl cr : C) (dl dr : D) (out : String) (s : CalState C D) : CalRun C D :=
  match t.stereo cl cr dl dr with
  | some c => ({ s with yaml := putFile s.yaml out c }, none)
  | none => (s, none)

/-- calibration.py L151-169: a right camera of another size is calibrated again with resized images, if that was not done before. -/
def resizedRight (cl : C) (right rfile : String) (foa : Bool) (s : CalState C D) : CalRun C D :=
  if (s.json ("resized_" ++ rfile)).isSome then (s, none) else calibrateMono t right ("resized_" ++ rfile) (some cl) foa s

/-- calibration.py L117-192 `calibrate_stereo`; a file that is missing is a `FileNotFoundError`, here `valueError`. -/
def calibrateStereo (left lfile right rfile out : String) (foa : Bool) (s : CalState C D) : CalRun C D :=
  if t.images left < 8 ∨ t.images right < 8 then (s, some .quit)
  else
    match s.json lfile, s.json rfile, s.yaml lfile, s.yaml rfile with
    | some dl, some dr, some cl, some cr =>
      if t.sameSize cl cr then writeStereo t cl cr dl dr out s
      else
        andThen (resizedRight t cl right rfile foa s) fun s =>
          match s.yaml ("resized_" ++ rfile), s.json ("resized_" ++ rfile) with
          | some c, some d => writeStereo t cl c dl d out s
          | _, _ => (s, some .valueError)
    | _, _, _, _ => (s, some .valueError)

/-- calibration.py L319-357, for one camera. -/
def monoCamera (o : CalOptions) (name : String) (s : CalState C D) : CalRun C D :=
  if (s.yaml (monoFile name o.suffix)).isSome = true ∧ o.fo = false then (s, none)
  else calibrateMono t name (monoFile name o.suffix) none o.foa s

/-- calibration.py L318-357 `Calibrator.mono`. -/
def calMono (o : CalOptions) : List String → CalState C D → CalRun C D
  | [], s => (s, none)
  | n :: ns, s => andThen (monoCamera t o n s) (calMono o ns)

/-- calibration.py L409-433 and L491-515: the monocular calibrations are made if one of them is missing. -/
def ensureMono (o : CalOptions) (names : List String) (left right : String) (s : CalState C D) : CalRun C D :=
  if (s.yaml (monoFile left "")).isSome = true ∧ (s.yaml (monoFile right "")).isSome = true then (s, none)
  else if o.suffix ≠ "" then (s, some .quit) else calMono t o names s

/-- calibration.py L361-454 and L457-536: calibration of a pair unless it exists. -/
def calPair (o : CalOptions) (names : List String) (left right : String) (s : CalState C D) : CalRun C D :=
  if (s.yaml (stereoFile left right o.suffix)).isSome = true ∧ o.fo = false then (s, some .quit)
  else
    andThen (ensureMono t o names left right s) fun s =>
      calibrateStereo t left (monoFile left "") right (monoFile right "") (stereoFile left right o.suffix) o.foa s

/-- calibration.py L455-555: the third camera with the first, and the same pair in reverse. -/
def calThird (o : CalOptions) (names : List String) (c0 c2 : String) (s : CalState C D) : CalRun C D :=
  andThen (calPair t o names c0 c2 s) fun s =>
    calibrateStereo t c2 (monoFile c2 "") c0 (monoFile c0 "") (stereoFile c2 c0 o.suffix) o.foa s

/-- calibration.py L359-555 `Calibrator.stereo`. -/
def calStereo (o : CalOptions) (names : List String) (s : CalState C D) : CalRun C D :=
  match names with
  | [c0, c1] => calPair t o names c0 c1 s
  | c0 :: c1 :: c2 :: _ => andThen (calPair t o names c0 c1 s) (calThird t o names c0 c2)
  | _ => (s, none)

/-- calibration.py L195-247 `calibrate_laser`. -/
def calibrateLaser (stereo top bottom : String) (s : CalState C D) : CalRun C D :=
  if t.laserFolders = false then (s, some .quit)
  else if t.laserImages < 8 then (s, none)
  else
    match s.yaml stereo with
    | none => (s, some .valueError)
    | some c =>
      match t.laser c with
      | none => (s, none)
      | some p =>
        if t.twoLasers then ({ s with yaml := putFile (putFile s.yaml top p.1) bottom p.2 }, none)
        else ({ s with yaml := putFile s.yaml top p.1 }, none)

/-- calibration.py L596-613: the stereo calibration is made if it is missing. -/
def ensureStereo (o : CalOptions) (names : List String) (file : String) (s : CalState C D) : CalRun C D :=
  if (s.yaml file).isSome = true then (s, none)
  else if o.suffix ≠ "" then (s, some .quit) else calStereo t o names s

/-- calibration.py L557-667 `Calibrator.laser`: the first camera is the main camera; a second camera is needed (`IndexError`). -/
def calLaser (o : CalOptions) (names : List String) (s : CalState C D) : CalRun C D :=
  match names with
  | c0 :: c1 :: _ =>
    if (s.yaml (laserFile "top" c0 o.suffix)).isSome = true ∧ o.fo = false then (s, some .quit)
    else
      andThen (ensureStereo t o names (stereoFile c0 c1 "") s)
        (calibrateLaser t (stereoFile c0 c1 "") (laserFile "top" c0 o.suffix) (laserFile "bottom" c0 o.suffix))
  | _ => (s, some .indexError)

end

end Oplab
