import Verif.Model.Attenuation

/-!
Model of the command `correct_images rescale`: /repo/src/correct_images/corrections/rescale.py L100-209 and
/repo/src/correct_images/correct_images.py L323-351.
-/

namespace Oplab

section
variable {K : Type} [Field K] [LinearOrder K] [FloorRing K]

/-- A section of the settings for rescaling. (rescale.py L142-148) -/
structure RescaleCam (K : Type) where
  name : String
  path : String
  distance : String
  method : String
  target : K
  maintain : Bool
  output : String

/-- What rescaling finds on the disk: the cameras of camera.yaml, the focal lengths in the calibration of a camera, the rows (image,
altitude) of the table auv_ekf_<camera>.csv below a folder, the files of a folder with the size of their images; and the stem of a path.
(rescale.py L150-196) -/
structure RescaleDisk (K : Type) where
  cameras : List String
  calibration : String → Option (K × K)
  table : String → String → Option (List (List Char × K))
  listing : String → Option (List (List Char × ℕ × ℕ))
  stem : List Char → List Char

/-- rescale.py L191-195: the files that are rescaled. -/
def isRescaled (name : List Char) : Bool :=
  let e := name.drop (name.length - 4)
  e = ".jpg".toList || e = ".png".toList || e = ".tif".toList

/-- rescale.py L100-138 `rescale_images`: the images that are written until an error or the end, with what was done to them. -/
def rescaleLoop (stem : List Char → List Char) (rows : List (List Char × K)) (c : RescaleCam K) (fx fy : K) :
    List (List Char × ℕ × ℕ) → List (String × List Char × List ImgOp) × Res Unit
  | [] => ([], .ok ())
  | (n, w, h) :: rest =>
    match rescaleImage stem rows n c.method c.target fx fy c.maintain w h with
    | .error e => ([], .error e)
    | .ok none => rescaleLoop stem rows c fx fy rest
    | .ok (some ops) =>
      let r := rescaleLoop stem rows c fx fy rest
      ((c.output, n, ops) :: r.1, r.2)

/-- rescale.py L141-209 `rescale_camera`; a missing table or folder is an `OSError` (here `valueError`). -/
def rescaleCamera (d : RescaleDisk K) (c : RescaleCam K) : List (String × List Char × List ImgOp) × Res Bool :=
  if c.name ∈ d.cameras then
    match d.calibration c.name with
    | none => ([], .error .quit)
    | some (fx, fy) =>
      match d.table c.distance c.name with
      | none => ([], .error .valueError)
      | some rows =>
        match d.listing c.path with
        | none => ([], .error .valueError)
        | some files =>
          let r := rescaleLoop d.stem rows c fx fy (files.filter fun f => isRescaled f.1)
          (r.1, r.2.map fun _ => true)
  else ([], .ok false)

/-- correct_images.py L348-349: the loop over the cameras. -/
def rescaleCameras (d : RescaleDisk K) : List (RescaleCam K) → List (String × List Char × List ImgOp) × Res Unit
  | [] => ([], .ok ())
  | c :: cs =>
    let r := rescaleCamera d c
    match r.2 with
    | .error e => (r.1, .error e)
    | .ok _ =>
      let s := rescaleCameras d cs
      (r.1 ++ s.1, s.2)

/-- correct_images.py L323-351 `call_rescale`. -/
def rescaleCommand (d : RescaleDisk K) : Option (List (RescaleCam K)) → List (String × List Char × List ImgOp) × Res Unit
  | none => ([], .error .quit)
  | some cs => rescaleCameras d cs

end

end Oplab
