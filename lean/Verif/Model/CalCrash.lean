import Verif.Model.CalFiles

/-! # Calibrations that are stopped

`/repo/src/auv_cal/calibration.py` as in `Model/CalFiles`, with the moments at which the program may be killed: a file is first opened for
writing, which empties it, and has its content when it is closed. Line numbers refer to calibration.py. -/

namespace Oplab

/-- A file opened with `open("w")` (L105, L111, L189, L237, L244): it has all of its content, or only a part of it because the program was
killed while it wrote. -/
inductive Stored (A : Type) where
  | whole (a : A)
  | part

/-- The calibration folder: calibrations (`.yaml`) and detections (`.json`) by stem of the file name (calibration.py L102, L322-324). -/
structure CalFolder (C D : Type) where
  yaml : String → Option (Stored C)
  json : String → Option (Stored D)

/-- calibration.py L111-112, L189-190, L237-238, L244-245: the states of the folder while a calibration is written. -/
def yamlWrite {C D : Type} (s : CalFolder C D) (out : String) (c : C) : List (CalFolder C D) :=
  [{ s with yaml := putFile s.yaml out .part }, { s with yaml := putFile s.yaml out (.whole c) }]

/-- calibration.py L105-107: the states of the folder while detections are written. -/
def jsonWrite {C D : Type} (s : CalFolder C D) (out : String) (d : D) : List (CalFolder C D) :=
  [{ s with json := putFile s.json out .part }, { s with json := putFile s.json out (.whole d) }]

/-- A run of a command (calibration.py L318-667): the states of the folder after each step, and the error that ended it. -/
abbrev CalTrace (C D : Type) := List (CalFolder C D) × Option Err

/-- The state after the run of a command (calibration.py L318-667): the last one, or that before if nothing was written. -/
def CalTrace.final {C D : Type} (r : CalTrace C D) (s : CalFolder C D) : CalFolder C D := r.1.getLastD s

/-- Statements after those of `r`, which started in `s`, unless these failed (calibration.py L424-454, L613-667). -/
def CalTrace.next {C D : Type} (r : CalTrace C D) (s : CalFolder C D) (f : CalFolder C D → CalTrace C D) : CalTrace C D :=
  match r.2 with
  | some e => (r.1, some e)
  | none => (r.1 ++ (f (r.final s)).1, (f (r.final s)).2)

section
variable {C D : Type} (t : CalTools C D)

/-- calibration.py L71-114 `calibrate_mono`. A file of detections that is not complete cannot be parsed by `json.load`, which raises
`JSONDecodeError`, a `ValueError`. -/
def monoSteps (name out : String) (foa : Bool) (s : CalFolder C D) : CalTrace C D :=
  if t.images name < 8 then ([], some .quit)
  else
    match (if foa then none else s.json out) with
    | some (.whole d) => (yamlWrite s out (t.solve d none), none)
    | some .part => ([], some .valueError)
    | none =>
      match t.detect name none with
      | some d =>
        (jsonWrite s out d ++ yamlWrite { s with json := putFile s.json out (.whole d) } out (t.solve d none), none)
      | none => ([], some .valueError)

/-- calibration.py L319-357, for one camera. A file that exists counts, complete or not. -/
def monoCameraSteps (o : CalOptions) (name : String) (s : CalFolder C D) : CalTrace C D :=
  if (s.yaml (monoFile name o.suffix)).isSome = true ∧ o.fo = false then ([], none)
  else monoSteps t name (monoFile name o.suffix) o.foa s

/-- calibration.py L318-357 `Calibrator.mono`. -/
def monoTrace (o : CalOptions) : List String → CalFolder C D → CalTrace C D
  | [], _ => ([], none)
  | n :: ns, s => (monoCameraSteps t o n s).next s (monoTrace o ns)

/-- calibration.py L147 and L170, `StereoCamera(left=…, right=…)`: OpenCV reads the calibration. `junk` is what it reads from a file that is not
complete, if that does not raise an error; keys that are missing give `None` (/repo/src/oplab/camera_models.py L72-80). -/
def readStored (junk : Option C) : Option (Stored C) → Option C
  | some (.whole c) => some c
  | some .part => junk
  | none => none

/-- calibration.py L144-192 of `calibrate_stereo`, for cameras with images of the same size. Files that are missing or cannot be read raise
errors (`FileNotFoundError` or `JSONDecodeError`, here `valueError`). -/
def stereoSteps (junk : Option C) (left right out : String) (s : CalFolder C D) : CalTrace C D :=
  match readStored none (s.json (monoFile left "")), readStored none (s.json (monoFile right "")),
    readStored junk (s.yaml (monoFile left "")), readStored junk (s.yaml (monoFile right "")) with
  | some dl, some dr, some cl, some cr =>
    match t.stereo cl cr dl dr with
    | some c => (yamlWrite s out c, none)
    | none => ([], none)
  | _, _, _, _ => ([], some .valueError)

/-- calibration.py L409-433: the monocular calibrations are made if one of them is missing. -/
def ensureMonoSteps (o : CalOptions) (left right : String) (s : CalFolder C D) : CalTrace C D :=
  if (s.yaml (monoFile left "")).isSome = true ∧ (s.yaml (monoFile right "")).isSome = true then ([], none)
  else if o.suffix ≠ "" then ([], some .quit) else monoTrace t o [left, right] s

/-- calibration.py L359-454 `Calibrator.stereo`, for two cameras (with enough images, L141-142). -/
def stereoTrace (junk : Option C) (o : CalOptions) (left right : String) (s : CalFolder C D) : CalTrace C D :=
  if (s.yaml (stereoFile left right o.suffix)).isSome = true ∧ o.fo = false then ([], some .quit)
  else (ensureMonoSteps t o left right s).next s (stereoSteps t junk left right (stereoFile left right o.suffix))

/-- calibration.py L562-592 and L224-245 of `laser_imp` and `calibrate_laser`, once there is a stereo calibration `c` and the images were
found: the plane of the top laser is written, then that of the bottom laser if there are two. -/
def laserTrace (o : CalOptions) (name : String) (c : C) (s : CalFolder C D) : CalTrace C D :=
  if (s.yaml (laserFile "top" name o.suffix)).isSome = true ∧ o.fo = false then ([], some .quit)
  else
    match t.laser c with
    | none => ([], none)
    | some p =>
      let top := { s with yaml := putFile s.yaml (laserFile "top" name o.suffix) (.whole p.1) }
      if t.twoLasers then
        (yamlWrite s (laserFile "top" name o.suffix) p.1 ++ yamlWrite top (laserFile "bottom" name o.suffix) p.2, none)
      else (yamlWrite s (laserFile "top" name o.suffix) p.1, none)

end

end Oplab
