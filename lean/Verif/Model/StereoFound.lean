import Verif.Model.CameraCal

/-! # A stereo calibration from saved detections, with its epipolar errors -/

namespace Oplab

/-- camera_calibrator.py L1305-1312: the error of a pair of images for a calibration; `found` is `epipolar_error_from_images` (L1557-1590), `none` if
the pattern is not found again in one of the two images. -/
def pairError {K V T : Type} [Field K] (found : T → V → Option K) (t : T) (v : V) : K :=
  match found t v with
  | some e => e
  | none => 1000

/-- camera_calibrator.py L1096-1137 `StereoCalibrator.cal_from_json` with L1240-1347: `common[0]` is taken before anything else; pairs are chosen by the
description of the left view. The two images of a pair, their corners and the board are one value `V`. -/
def stereoFromJson {K V T : Type} [Field K] [LinearOrder K] (params : V → List K) (solve : List V → K × T) (found : T → V → Option K)
    (mean std : List K → K) (common : List V) : Res (Option (StereoCal K V T) × Option T) :=
  match common with
  | [] => .error .indexError
  | _ :: _ => stereoCalibrate solve (pairError found) mean std (chooseViews params common [])

end Oplab
