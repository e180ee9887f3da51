import Verif.Model.RescaleCommand

/-!
# What the command for rescaling writes
-/

namespace Oplab.Spec
open Oplab

section
variable {K : Type} [Field K] [LinearOrder K] [FloorRing K]

/-- File `n` of the folder `out` is the image `n` of camera `c`, rescaled with the camera's calibration and an altitude of the
camera's table. -/
def RescaledImage (d : RescaleDisk K) (c : RescaleCam K) (e : String × List Char × List ImgOp) : Prop :=
  e.1 = c.output ∧ c.name ∈ d.cameras ∧ ∃ fx fy rows files w h image altitude,
    d.calibration c.name = some (fx, fy) ∧ d.table c.distance c.name = some rows ∧ d.listing c.path = some files ∧
    (e.2.1, w, h) ∈ files ∧ (image, altitude) ∈ rows ∧ d.stem image <:+: e.2.1 ∧
    rescaleOps c.method c.target altitude fx fy c.maintain w h = .ok e.2.2

/-- An image of camera `c` for which there is an altitude. -/
def HasAltitude (d : RescaleDisk K) (c : RescaleCam K) (n : List Char) : Prop :=
  ∃ rows files w h image altitude, d.table c.distance c.name = some rows ∧ d.listing c.path = some files ∧ (n, w, h) ∈ files ∧
    (image, altitude) ∈ rows ∧ d.stem image <:+: n

/-- The name ends with .jpg, .png or .tif. -/
def ImageEnding (n : List Char) : Prop := ∃ s, n = s ++ ".jpg".toList ∨ n = s ++ ".png".toList ∨ n = s ++ ".tif".toList

/-- The name ends with .jpg, .png, .tif, .jpeg or .tiff, in lower or upper case. -/
def AnyImageEnding (n : List Char) : Prop :=
  ImageEnding n ∨ ∃ s, n = s ++ ".JPG".toList ∨ n = s ++ ".PNG".toList ∨ n = s ++ ".TIF".toList ∨ n = s ++ ".jpeg".toList ∨ n = s ++ ".tiff".toList

end

/-- Full property: if the command ends well, every image with an altitude of every camera in the settings is rescaled. -/
def AllCamerasRescaled : Prop :=
  ∀ (d : RescaleDisk ℚ) (cs : List (RescaleCam ℚ)), (rescaleCommand d (some cs)).2 = .ok () →
    ∀ c ∈ cs, ∀ n, ImageEnding n → HasAltitude d c n → ∃ ops, (c.output, n, ops) ∈ (rescaleCommand d (some cs)).1

/-- Full property: whatever the ending of the image. -/
def AllEndingsRescaled : Prop :=
  ∀ (d : RescaleDisk ℚ) (cs : List (RescaleCam ℚ)), (rescaleCommand d (some cs)).2 = .ok () →
    ∀ c ∈ cs, c.name ∈ d.cameras → ∀ n, AnyImageEnding n → HasAltitude d c n → ∃ ops, (c.output, n, ops) ∈ (rescaleCommand d (some cs)).1

end Oplab.Spec
