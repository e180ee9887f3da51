import Verif.Model.CorrectYaml
import Verif.Model.RescaleCommand
import Verif.Model.ProcessRun

/-! # `correct_images rescale` from the settings

Models /repo/src/correct_images/correct_images.py L323-351 from the sections `rescale` of correct_images.yaml
(/repo/src/correct_images/parser.py L217-259) to the images (/repo/src/correct_images/corrections/rescale.py L141-209). Numbers are exact. -/

namespace Oplab

/-- rescale.py L43-59: an interpolation that is not a text is not one of the four, as is the empty text. -/
def methodText : Y → String
  | .str m => m
  | _ => ""

/-- rescale.py L141-209: one camera of the settings. A folder that is not a text cannot be joined to a path (`TypeError`), which is noticed after
the camera was found (L150-164), for the output folder after the calibration was read (L184). The flag is converted by `bool` (L147). -/
def rescaleYamlCamera (d : RescaleDisk ℚ) (y : RescaleYaml) : List (String × List Char × List ImgOp) × Res Bool :=
  match y.name with
  | .str n =>
    if n ∈ d.cameras then
      match y.path, y.distancePath with
      | .str p, .str q =>
        match d.calibration n with
        | none => ([], .error .quit)
        | some _ =>
          match y.output with
          | .str o => rescaleCamera d ⟨n, p, q, methodText y.method, y.pixelSize, y.maintain.truthy, o⟩
          | _ => ([], .error .typeError)
      | _, _ => ([], .error .typeError)
    else ([], .ok false)
  | _ => ([], .ok false)

/-- correct_images.py L348-350: the loop over the cameras of the settings. -/
def rescaleYamlCameras (d : RescaleDisk ℚ) : List RescaleYaml → List (String × List Char × List ImgOp) × Res Unit
  | [] => ([], .ok ())
  | y :: ys =>
    let r := rescaleYamlCamera d y
    match r.2 with
    | .error e => (r.1, .error e)
    | .ok _ =>
      let s := rescaleYamlCameras d ys
      (r.1 ++ s.1, s.2)

/-- correct_images.py L323-351: the sections are all read first (parser.py L246-259). -/
def rescaleSections (d : RescaleDisk ℚ) (sections : List Y) : List (String × List Char × List ImgOp) × Res Unit :=
  match readAll readRescale sections with
  | .error e => ([], .error e)
  | .ok ys => rescaleYamlCameras d ys

end Oplab
