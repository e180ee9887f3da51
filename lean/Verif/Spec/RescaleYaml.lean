import Verif.Model.RescaleYaml
import Verif.Spec.RescaleCommand

/-! # What the settings of `rescale` mean -/

namespace Oplab.Spec

/-- A section as it is documented (docs/correct_images.md): the size of a pixel is in centimetres. -/
structure RescaleSection where
  camera : String
  path : String
  distance : String
  method : String
  centimetres : ℚ
  keep : Y
  output : String

/-- The section in the file. -/
def RescaleSection.yaml (s : RescaleSection) : Y :=
  .dict [("camera_name", .str s.camera), ("path", .str s.path), ("distance_path", .str s.distance), ("interpolate_method", .str s.method),
    ("target_pixel_size", .num s.centimetres), ("maintain_pixels", s.keep), ("output_folder", .str s.output)]

/-- The image `e` is one of the folder of the section, with `w` by `h` pixels that have these sizes on the floor, in metres, by the calibration
of the camera and the altitude in its table. -/
def ImageOfSection (d : RescaleDisk ℚ) (s : RescaleSection) (e : String × List Char × List ImgOp) (w h : ℕ) (width height : ℚ) : Prop :=
  e.1 = s.output ∧ ∃ fx fy rows files image altitude, d.calibration s.camera = some (fx, fy) ∧ d.table s.distance s.camera = some rows ∧
    d.listing s.path = some files ∧ (e.2.1, w, h) ∈ files ∧ (image, altitude) ∈ rows ∧ d.stem image <:+: e.2.1 ∧
    width = altitude / fx ∧ height = altitude / fy

/-- The image is as large as pixels of `size` metres fit in it, up to one. -/
def FitsPixels (ops : List ImgOp) (w h : ℕ) (width height size : ℚ) : Prop :=
  ∃ w' h' : ℤ, ops = [.resize w' h'] ∧ w' * size ≤ w * width ∧ w * width < (w' + 1) * size ∧ h' * size ≤ h * height ∧
    h * height < (h' + 1) * size

/-- Calibrations and altitudes are possible. -/
def GoodDisk (d : RescaleDisk ℚ) : Prop :=
  (∀ c fx fy, d.calibration c = some (fx, fy) → 0 < fx ∧ 0 < fy) ∧ ∀ f c rows, d.table f c = some rows → ∀ r ∈ rows, 0 ≤ r.2

/-- What the flag asks for: a truth value, or `'Y'` and `'N'` as in the documentation. -/
def KeepsSize : Y → Option Bool
  | .bool b => some b
  | .str "Y" => some true
  | .str "N" => some false
  | _ => none

/-- Images of sections that do not keep the size have pixels of the size in the settings. -/
def SizeAsSet : Prop :=
  ∀ (d : RescaleDisk ℚ) (sections : List RescaleSection), GoodDisk d → (∀ s ∈ sections, 0 < s.centimetres ∧ KeepsSize s.keep = some false) →
    ∀ e ∈ (rescaleSections d (sections.map RescaleSection.yaml)).1, ∃ s ∈ sections, ∃ w h width height,
      ImageOfSection d s e w h width height ∧ FitsPixels e.2.2 w h width height (s.centimetres / 100)

/-- The section of the settings that are shipped (e.g. default_yaml/acfr/correct_images.yaml L52-59), with the folders filled in and the size not
kept. Its size has the comment "in meters". -/
def shippedSection (camera path distance output : String) : RescaleSection := ⟨camera, path, distance, "bicubic", 0.01, .bool false, output⟩

/-- With them, pixels are 0.01 metres. -/
def ShippedSize : Prop :=
  ∀ (d : RescaleDisk ℚ) (camera path distance output : String), GoodDisk d →
    ∀ e ∈ (rescaleSections d [(shippedSection camera path distance output).yaml]).1, ∃ w h width height,
      ImageOfSection d (shippedSection camera path distance output) e w h width height ∧ FitsPixels e.2.2 w h width height 0.01

end Oplab.Spec
