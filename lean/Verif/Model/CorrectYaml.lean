import Verif.Model.Config
import Verif.Model.CorrectCommand

/-! # `correct_images.yaml`

`/repo/src/correct_images/parser.py` on parsed YAML, and what `corrector.py` makes of it for a camera. -/

namespace Oplab

/-! ## Reading -/

/-- parser.py L39-97 `ColourCorrection`; the limits are (minimum, maximum). -/
structure ColourYaml where
  metric : Y
  path : Y
  parse : Y × Y
  process : Y × Y
  smoothing : Y
  window : Y

/-- The limits of a range. (parser.py L74-77) -/
def readRange (y : Y) : Res (Y × Y) := do
  let d ← y.asDict .typeError
  let lo ← Node.req d "min_m"
  let hi ← Node.req d "max_m"
  .ok (lo, hi)

/-- parser.py L74-95: the two forms of the altitude filter, the new one first. -/
def readFilter (f : Node) : Res ((Y × Y) × (Y × Y)) :=
  match f.lookup "parse", f.lookup "process", f.lookup "min_m", f.lookup "max_m" with
  | some p, some q, _, _ => do
    let a ← readRange p
    let b ← readRange q
    .ok (a, b)
  | _, _, some lo, some hi => .ok ((lo, hi), (lo, hi))
  | _, _, _, _ => .error .quit

/-- parser.py L48-61: a deprecated or an unknown distance metric. -/
def readMetric : Y → Res Y
  | .str m => if metricOf m ∈ ["uniform", "altitude", "depth_map"] then .ok (.str (metricOf m)) else .error .quit
  | _ => .error .quit

/-- parser.py L39-97 `ColourCorrection.__init__`. -/
def readColourYaml (y : Y) : Res ColourYaml := do
  let n ← y.asDict .typeError
  let m ← Node.req n "distance_metric"
  let metric ← readMetric m
  let path ← Node.req n "metric_path"
  let f ← Node.req n "altitude_filter"
  let f ← f.asDict .typeError
  let r ← readFilter f
  let s ← Node.req n "smoothing"
  let w ← Node.req n "window_size"
  .ok ⟨metric, path, r.1, r.2, s, w⟩

/-- parser.py L100-161 `CameraConfig`. -/
structure CameraYamlConfig where
  name : Y
  listParse : Y
  listProcess : Y
  brightness : Y
  contrast : Y
  subtractors : Y
  gains : Y

/-- Two values of a section that may be missing, each with a default. A section that is there must be a mapping, anything else has no `get`.
(parser.py L139-154) -/
def readPair (n : Node) (sec k1 k2 : String) (d1 d2 : Y) : Res (Y × Y) :=
  match n.lookup sec with
  | none => .ok (d1, d2)
  | some s => do
    let s ← s.asDict .attributeError
    .ok (Node.getD s k1 d1, Node.getD s k2 d2)

/-- parser.py L131-137: as `readPair`, but an empty section counts as missing. -/
def readLists (n : Node) : Res (Y × Y) :=
  match n.lookup "image_file_list" with
  | some .null => .ok (.str "none", .str "none")
  | _ => readPair n "image_file_list" "parse" "process" (.str "none") (.str "none")

/-- parser.py L145: no subtraction. -/
def noSubtractors : Y := .list [.num 0, .num 0, .num 0]

/-- parser.py L146: the identity. -/
def unitGains : Y := .list [.list [.num 1, .num 0, .num 0], .list [.num 0, .num 1, .num 0], .list [.num 0, .num 0, .num 1]]

/-- parser.py L120-161 `CameraConfig.__init__`. -/
def readCameraYaml (y : Y) : Res CameraYamlConfig := do
  let n ← y.asDict .typeError
  let name ← Node.req n "camera_name"
  let l ← readLists n
  let c ← readPair n "colour_correction" "brightness" "contrast" (.num 30) (.num 3)
  let m ← readPair n "manual_balance" "subtractors_rgb" "colour_gain_matrix_rgb" noSubtractors unitGains
  .ok ⟨name, l.1, l.2, c.1, c.2, m.1, m.2⟩

/-- parser.py L217-234 `RescaleImage`; the pixel size is in metres. -/
structure RescaleYaml where
  name : Y
  path : Y
  distancePath : Y
  method : Y
  pixelSize : ℚ
  maintain : Y
  output : Y

/-- parser.py L249-259, L218-234. -/
def readRescale (y : Y) : Res RescaleYaml := do
  let n ← y.asDict .typeError
  let name ← Node.req n "camera_name"
  let path ← Node.req n "path"
  let dist ← Node.req n "distance_path"
  let m ← Node.req n "interpolate_method"
  let t ← Node.req n "target_pixel_size"
  let k ← Node.req n "maintain_pixels"
  let o ← Node.req n "output_folder"
  let t ← t.asNum
  .ok ⟨name, path, dist, m, t / 100, k, o⟩

/-- A list of sections. (parser.py L186-188, L246-259) -/
def readAll {α : Type} (f : Y → Res α) : List Y → Res (List α)
  | [] => .ok []
  | y :: l => do
    let a ← f y
    let r ← readAll f l
    .ok (a :: r)

/-- parser.py L262-324 `CorrectConfig`. -/
structure CorrectYaml where
  version : Y
  method : String
  colour : Option ColourYaml
  cameras : List CameraYamlConfig
  undistort : Y
  compression : Y
  rescale : Option (List RescaleYaml)

/-- parser.py L307-317: the known methods. -/
def readMethod : Y → Res String
  | .str m => if m = "manual_balance" ∨ m = "colour_correction" then .ok m else .error .quit
  | _ => .error .quit

/-- A section that may be missing. (parser.py L319-324) -/
def readOptional {α : Type} (f : Y → Res α) : Option Y → Res (Option α)
  | none => .ok none
  | some y => do
    let a ← f y
    .ok (some a)

/-- parser.py L280-324 `CorrectConfig.__init__` with a file. -/
def readCorrectYaml (y : Y) : Res CorrectYaml := do
  let d ← y.asDict .typeError
  match d.lookup "version" with
  | none => .error .quit
  | some v => do
    let m ← Node.req d "method"
    let method ← readMethod m
    let colour ← readOptional readColourYaml (d.lookup "colour_correction")
    let cs ← Node.req d "cameras"
    let cs ← cs.asList
    let cameras ← readAll readCameraYaml cs
    let o ← Node.req d "output_settings"
    let o ← o.asDict .typeError
    let u ← Node.req o "undistort"
    let p ← Node.req o "compression_parameter"
    let rescale ← readOptional (fun y => do
      let l ← y.asList
      readAll readRescale l) (d.lookup "rescale")
    .ok ⟨v, method, colour, cameras, u, p, rescale⟩

/-! ## The settings of a camera -/

/-- What a run uses for a camera. (corrector.py L195-247) -/
structure CameraSetup where
  colour : ColourYaml
  camera : CameraYamlConfig

/-- corrector.py L187-233 `load_configuration`, L490-505 `get_camera_idx`: the settings of the dive are read for either method; the first camera of the
name is used, `none` if there is none. -/
def cameraSetup (c : CorrectYaml) (name : String) : Res (Option CameraSetup) :=
  match c.colour with
  | none => .error .attributeError
  | some s => .ok ((c.cameras.find? fun k => match k.name with | .str m => m = name | _ => false).map fun k => ⟨s, k⟩)

/-- An element of `np.array` of a matrix. (corrector.py L432-445) -/
def gainAt (m : List (List ℚ)) (i j : ℕ) : Res ℚ := do
  let r ← pyGet m i
  pyGet r j

/-- corrector.py L429-449: the folder of the images for the manual balance. `text` is `str` of a number. -/
def manualFolder (text : ℚ → List Char) (gains : List (List ℚ)) (subs : List ℚ) (suffix : List Char) : Res (List Char) := do
  let g0 ← gainAt gains 0 0
  let g1 ← gainAt gains 1 1
  let g2 ← gainAt gains 2 2
  let s0 ← pyGet subs 0
  let s1 ← pyGet subs 1
  let s2 ← pyGet subs 2
  .ok ("corrected_manual_gain_".toList ++ text g0 ++ ['_'] ++ text g1 ++ ['_'] ++ text g2 ++ "_sub_".toList ++ text s0 ++ ['_'] ++ text s1 ++ ['_'] ++
    text s2 ++ suffixText suffix)

end Oplab
