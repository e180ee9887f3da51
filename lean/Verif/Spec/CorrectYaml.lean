import Verif.Model.CorrectYaml

/-! # Specification for C198: the documented contents of correct_images.yaml (docs/correct_images.md) -/

namespace Oplab.Spec
open Oplab

/-- Limits of the altitude: the same for both steps (old form), or for each. -/
inductive FilterDoc
  | both (lo hi : ℚ)
  | each (parse process : ℚ × ℚ)

/-- The section of the attenuation. -/
structure ColourDoc where
  metric : String
  path : String
  filter : FilterDoc
  smoothing : String
  window : ℕ

/-- A camera; what may be left out is optional. -/
structure CameraDoc where
  name : String
  listParse : Option String
  listProcess : Option String
  brightness : Option ℚ
  contrast : Option ℚ
  subtractors : Option (List ℚ)
  gains : Option (List (List ℚ))

/-- A camera whose images are rescaled; pixel size in centimetres. -/
structure RescaleDoc where
  name : String
  path : String
  distancePath : String
  method : String
  centimetres : ℚ
  maintain : Bool
  output : String

/-- The whole file. -/
structure CorrectDoc where
  version : ℚ
  method : String
  colour : Option ColourDoc
  cameras : List CameraDoc
  undistort : Bool
  compression : String
  rescale : Option (List RescaleDoc)

/-- An entry that may be left out. -/
def entry (k : String) (v : Option Y) : Node := (v.map fun y => (k, y)).toList

/-- A range in YAML. -/
def rangeYaml (r : ℚ × ℚ) : Y := .dict [("min_m", .num r.1), ("max_m", .num r.2)]

/-- The filter in YAML. -/
def FilterDoc.yaml : FilterDoc → Y
  | .both lo hi => rangeYaml (lo, hi)
  | .each p q => .dict [("parse", rangeYaml p), ("process", rangeYaml q)]

/-- The section of the attenuation in YAML. -/
def ColourDoc.yaml (c : ColourDoc) : Y :=
  .dict [("distance_metric", .str c.metric), ("metric_path", .str c.path), ("altitude_filter", c.filter.yaml), ("smoothing", .str c.smoothing),
    ("window_size", .num c.window)]

/-- Numbers in YAML. -/
def numsYaml (l : List ℚ) : Y := .list (l.map Y.num)

/-- A camera in YAML. -/
def CameraDoc.yaml (c : CameraDoc) : Y :=
  .dict [("camera_name", .str c.name),
    ("image_file_list", .dict (entry "parse" (c.listParse.map Y.str) ++ entry "process" (c.listProcess.map Y.str))),
    ("colour_correction", .dict (entry "brightness" (c.brightness.map Y.num) ++ entry "contrast" (c.contrast.map Y.num))),
    ("manual_balance", .dict (entry "subtractors_rgb" (c.subtractors.map numsYaml) ++
      entry "colour_gain_matrix_rgb" (c.gains.map fun m => .list (m.map numsYaml))))]

/-- A rescaled camera in YAML. -/
def RescaleDoc.yaml (r : RescaleDoc) : Y :=
  .dict [("camera_name", .str r.name), ("path", .str r.path), ("distance_path", .str r.distancePath), ("interpolate_method", .str r.method),
    ("target_pixel_size", .num r.centimetres), ("maintain_pixels", .bool r.maintain), ("output_folder", .str r.output)]

/-- The file in YAML. -/
def CorrectDoc.yaml (d : CorrectDoc) : Y :=
  .dict ([("version", .num d.version), ("method", .str d.method)] ++ entry "colour_correction" (d.colour.map ColourDoc.yaml) ++
    [("cameras", .list (d.cameras.map CameraDoc.yaml)),
     ("output_settings", .dict [("undistort", .bool d.undistort), ("compression_parameter", .str d.compression)])] ++
    entry "rescale" (d.rescale.map fun l => .list (l.map RescaleDoc.yaml)))

/-- The limits for the two steps. -/
def FilterDoc.ranges : FilterDoc → (ℚ × ℚ) × (ℚ × ℚ)
  | .both lo hi => ((lo, hi), (lo, hi))
  | .each p q => (p, q)

/-- What a run should use for the attenuation; `none` is the old name of `uniform`. -/
def ColourDoc.settings (c : ColourDoc) : ColourYaml where
  metric := .str (if c.metric = "none" then "uniform" else c.metric)
  path := .str c.path
  parse := (.num c.filter.ranges.1.1, .num c.filter.ranges.1.2)
  process := (.num c.filter.ranges.2.1, .num c.filter.ranges.2.2)
  smoothing := .str c.smoothing
  window := .num c.window

/-- What a run should use for a camera: all images, 30 % brightness, 3 % contrast, no balance unless something else is given. -/
def CameraDoc.settings (c : CameraDoc) : CameraYamlConfig where
  name := .str c.name
  listParse := .str (c.listParse.getD "none")
  listProcess := .str (c.listProcess.getD "none")
  brightness := .num (c.brightness.getD 30)
  contrast := .num (c.contrast.getD 3)
  subtractors := numsYaml (c.subtractors.getD [0, 0, 0])
  gains := .list ((c.gains.getD [[1, 0, 0], [0, 1, 0], [0, 0, 1]]).map numsYaml)

/-- What a run should use to rescale, in metres. -/
def RescaleDoc.settings (r : RescaleDoc) : RescaleYaml :=
  ⟨.str r.name, .str r.path, .str r.distancePath, .str r.method, r.centimetres / 100, .bool r.maintain, .str r.output⟩

/-- What a run should use. -/
def CorrectDoc.settings (d : CorrectDoc) : CorrectYaml :=
  ⟨.num d.version, d.method, d.colour.map ColourDoc.settings, d.cameras.map CameraDoc.settings, .bool d.undistort, .str d.compression,
    d.rescale.map fun l => l.map RescaleDoc.settings⟩

/-- Methods and metrics that exist. -/
def CorrectDoc.Valid (d : CorrectDoc) : Prop :=
  d.method ∈ ["manual_balance", "colour_correction"] ∧ ∀ c ∈ d.colour, c.metric ∈ ["none", "uniform", "altitude", "depth_map"]

/-- A camera that is in a valid file can be set up by either method. -/
def EveryMethodRuns : Prop :=
  ∀ (d : CorrectDoc), d.Valid → ∀ c ∈ d.cameras, ∃ s y, readCorrectYaml d.yaml = .ok y ∧ cameraSetup y c.name = .ok (some s)

/-- Every valid balance of one or three channels has an output folder. -/
def EveryBalanceRuns : Prop :=
  ∀ (text : ℚ → List Char) (gains : List (List ℚ)) (subs : List ℚ), (subs.length = 1 ∨ subs.length = 3) → gains.length = subs.length →
    (∀ r ∈ gains, r.length = subs.length) → ∃ f, manualFolder text gains subs [] = .ok f

/-- Limits that no altitude meets are refused. -/
def EmptyLimitsRefused : Prop :=
  ∀ (c : ColourDoc) s, readColourYaml c.yaml = .ok s → ∃ h, c.filter.ranges.1.1 ≤ h ∧ h ≤ c.filter.ranges.1.2

/-- Images balanced in different ways are in different folders. -/
def BalancesApart : Prop :=
  ∀ (text : ℚ → List Char), (∀ a b, text a = text b → a = b) → ∀ (g g' : List (List ℚ)) (s s' : List ℚ) f,
    manualFolder text g s [] = .ok f → manualFolder text g' s' [] = .ok f → g = g' ∧ s = s'

end Oplab.Spec
