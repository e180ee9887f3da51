import Verif.Model.CameraCal
import Verif.Model.CalFiles

/-!
# Views of a monocular calibration

/repo/src/auv_cal/camera_calibrator.py, `MonoCalibrator.collect_corners`, from the list of files on. OpenCV's reading, detection and resizing
are parameters. joblib returns the results in the order of the list, whatever the order in which images are processed.
-/

namespace Oplab

/-- What `collect_corners` calls: `cv2.imread` (`none` if the file cannot be read), the size of an image, `resize_with_padding`, `get_corners`
(L588, `none` if not ok), `_is_sharp` (L595) and `get_parameters` (L594): camera_calibrator.py L559-683. -/
structure ViewTools (I D S K : Type) where
  imread : String → Option I
  size : I → S
  resize : I → S → I
  corners : I → Option D
  sharp : I → D → Bool
  params : S → D → List K

section
variable {I D S K : Type}

/-- camera_calibrator.py L576-620 `get_image_corners`: the detection in one image. -/
def imageCorners (t : ViewTools I D S K) (target : Option S) (file : String) : Option D :=
  match t.imread file with
  | none => none
  | some im =>
    let im := match target with
      | none => im
      | some s => t.resize im s
    match t.corners im with
    | none => none
    | some d => if t.sharp im d then some d else none

/-- The results of camera_calibrator.py L559-683: what is written to the json file (calibration.py L104-106), and the views that are used,
whose files are listed in `inliers.txt` (L681-683). -/
structure Collected (D S : Type) where
  json : List (SavedView D S)
  used : List (SavedView D S)

variable [Field K] [LinearOrder K]

/-- camera_calibrator.py L559-683 `collect_corners`. L569 reads the first image to know the size: a file that cannot be read is `None`, which has no
`shape`. Without any detection `all_detections` is `None` and `cv2.imwrite` raises an error (here `valueError`) at L669, before
`CalibrationException` could be raised (L671-672). Debug images are not modelled. -/
def collectViews (t : ViewTools I D S K) (target : Option S) (files : List String) : Res (Collected D S) :=
  match files with
  | [] => .error .indexError
  | f :: _ =>
    match t.imread f with
    | none => .error .attributeError
    | some im =>
      let size := target.getD (t.size im)
      let json := (collectCorners t.params size (files.map fun f => (f, imageCorners t target f))).1
      let used := chooseViews (fun s : SavedView D S => t.params size s.view) json []
      if json = [] then .error .valueError else .ok ⟨json, used⟩

/-- The parts of the calibration that `Model/CalFiles` takes as parameters, for cameras whose images are listed: calibration.py L86-112. Detections are
the content of the json file, a calibration is its image size and the views it is computed from (camera_calibrator.py L503-557). An unreadable
first image and missing detections both end the program. -/
def toolsOfImages (t : ViewTools I D S K) (files : String → List String) (base : CalTools (Option S × List D) (List (SavedView D S))) :
    CalTools (Option S × List D) (List (SavedView D S)) :=
  { base with
    images := fun n => (files n).length
    detect := fun n target => match collectViews t (target.bind Prod.fst) (files n) with
      | .ok r => some r.json
      | .error _ => none
    solve := fun json _ => (json.head?.map SavedView.size, viewsFromJson t.params json) }

end
end Oplab
