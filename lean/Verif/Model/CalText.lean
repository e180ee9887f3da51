import Mathlib.Data.Rat.Floor
import Mathlib.Algebra.Order.Floor.Semiring
import Verif.Model.Basic
import Verif.Model.Time
import Verif.Model.Sonardyne
import Verif.Model.CsvFiles

/-! The calibration files of auv_cal as text: written by `MonoCalibrator.yaml` and `StereoCalibrator.yaml`
(/repo/src/auv_cal/camera_calibrator.py L878-957, L1442-1553) and read by `MonoCamera` and `StereoCamera`
(/repo/src/oplab/camera_models.py L72-79, L237-264) through OpenCV's `FileStorage`.

Numbers are rationals: finite floats; `nan` and `inf` are not modelled. -/

namespace Oplab

/-! ## Numbers as text -/

/-- The decimal digits of a natural number, `str(n)` (camera_calibrator.py L891, L894). -/
def decDigits (n : Nat) : Text :=
  if n < 10 then [Char.ofNat (48 + n)] else decDigits (n / 10) ++ [Char.ofNat (48 + n % 10)]

/-- Rounding of a non-negative number to the nearest integer, ties to even: how `%f` rounds (camera_calibrator.py L903). -/
def roundEven (q : ℚ) : ℕ :=
  let n := ⌊q⌋₊
  if q - n < 1 / 2 then n else if 1 / 2 < q - n then n + 1 else if n % 2 = 0 then n else n + 1

/-- `"%f" % q`: sign, integer part, point and six decimals (camera_calibrator.py L903). -/
def fixed6 (q : ℚ) : Text :=
  let m := roundEven (|q| * 10 ^ 6)
  (if q < 0 then ['-'] else []) ++ decDigits (m / 10 ^ 6) ++ '.' :: padDigits 6 (m % 10 ^ 6)

/-- `"%8f" % q`: filled with blanks on the left up to eight characters (camera_calibrator.py L903). -/
def fixed8 (q : ℚ) : Text := List.replicate (8 - (fixed6 q).length) ' ' ++ fixed6 q

/-- `", ".join(["%8f" % i for i in l])` (camera_calibrator.py L903). -/
def joinNumbers : List ℚ → Text
  | [] => []
  | [q] => fixed8 q
  | q :: qs => fixed8 q ++ ',' :: ' ' :: joinNumbers qs

/-! ## Arrays -/

/-- A two-dimensional numpy array, row by row (camera_calibrator.py L880-884). -/
structure NpMat where
  rows : ℕ
  cols : ℕ
  data : List ℚ
deriving DecidableEq

/-- `m.reshape(1, n)[0]` (camera_calibrator.py L903): all entries, an error if there are not exactly `n`. -/
def NpMat.flat (m : NpMat) (n : ℕ) : Res (List ℚ) := if m.data.length = n then .ok m.data else .error .valueError

/-- `m[i, j]` (camera_calibrator.py L913). -/
def NpMat.at (m : NpMat) (i j : ℕ) : Res ℚ :=
  if i < m.rows ∧ j < m.cols then
    match m.data[i * m.cols + j]? with
    | some x => .ok x
    | none => .error .indexError
  else .error .indexError

/-- A loop `[f(i) for i in range(n)]` (camera_calibrator.py L913). -/
def rangeRes (f : ℕ → Res ℚ) : ℕ → Res (List ℚ)
  | 0 => .ok []
  | n + 1 => do
    let l ← rangeRes f n
    let x ← f n
    .ok (l ++ [x])

/-! ## Writing -/

/-- What `yaml` writes of one camera (camera_calibrator.py L879-884). -/
structure CalCamera where
  width : ℕ
  height : ℕ
  name : Text
  K : NpMat
  d : NpMat
  R : NpMat
  P : NpMat

/-- The lines at the end that say who calibrated, and how well: date, user, host, version, number of images and mean error, as texts
(camera_calibrator.py L937-955). -/
structure CalAbout where
  date : Text
  user : Text
  host : Text
  version : Text
  images : Text
  error : Text

/-- A line `key: value` at an indentation (camera_calibrator.py L890-895). -/
def calLine (ind : ℕ) (key : String) (value : Text) : Text :=
  List.replicate ind ' ' ++ key.toList ++ ':' :: ' ' :: value

/-- A line `key:` that opens a block (camera_calibrator.py L1460). -/
def calHead (key : String) : Text := key.toList ++ [':']

/-- A matrix block (camera_calibrator.py L898-904). -/
def calMatrix (ind : ℕ) (key : String) (rows cols : ℕ) (data : List ℚ) : List Text :=
  [calLine ind key "!!opencv-matrix".toList, calLine (ind + 2) "rows" (decDigits rows), calLine (ind + 2) "cols" (decDigits cols),
    calLine (ind + 2) "dt" "d".toList, calLine (ind + 2) "data" ('[' :: (joinNumbers data ++ [']']))]

/-- The lines of one camera, given the distortion coefficients that are printed (camera_calibrator.py L889-929; L1461-1488 with two
more blanks). -/
def calCameraLines (ind : ℕ) (c : CalCamera) (d : List ℚ) : Res (List Text) := do
  let k ← c.K.flat 9
  let r ← c.R.flat 9
  let p ← c.P.flat 12
  .ok ([calLine ind "image_width" (decDigits c.width), calLine ind "image_height" (decDigits c.height),
      calLine ind "camera_name" c.name] ++
    calMatrix ind "camera_matrix" 3 3 k ++
    [calLine ind "distortion_model" (if c.d.data.length > 5 then "rational_polynomial".toList else "plumb_bob".toList)] ++
    calMatrix ind "distortion_coefficients" 1 5 d ++
    calMatrix ind "rectification_matrix" 3 3 r ++
    calMatrix ind "projection_matrix" 3 4 p)

/-- camera_calibrator.py L936-955. -/
def calAboutLines (a : CalAbout) : List Text :=
  [calLine 0 "date" ('"' :: (a.date ++ ['"', ' '])), calLine 0 "user" ('"' :: (a.user ++ ['"', ' '])),
    calLine 0 "host" ('"' :: (a.host ++ ['"', ' '])), calLine 0 "version" ('"' :: (a.version ++ ['"', ' '])),
    calLine 0 "number_of_images" a.images, calLine 0 "avg_reprojection_error" a.error]

/-- Lines to text (camera_calibrator.py L888-956). -/
def joinCalLines (ls : List Text) : Text := ls.flatMap (· ++ ['\n'])

/-- camera_calibrator.py L878-957 `MonoCalibrator.yaml`: the distortion coefficients are the first column. -/
def monoYaml (c : CalCamera) (stdev : NpMat) (a : CalAbout) : Res Text := do
  let d ← rangeRes (fun i => c.d.at i 0) c.d.rows
  let cam ← calCameraLines 0 c d
  let s ← rangeRes (fun i => stdev.at i 0) 9
  .ok (joinCalLines (["%YAML:1.0".toList] ++ cam ++ calMatrix 0 "stdev_intrinsics" 1 9 s ++ calAboutLines a))

/-- How the cameras are placed to each other (camera_calibrator.py L1516-1546). -/
structure CalExtrinsics where
  R : NpMat
  T : NpMat
  F : NpMat
  E : NpMat

/-- camera_calibrator.py L1515-1546. -/
def calExtrinsicsLines (x : CalExtrinsics) : Res (List Text) := do
  let r ← x.R.flat 9
  let t ← x.T.flat 3
  let f ← x.F.flat 9
  let e ← x.E.flat 9
  .ok (calMatrix 2 "rotation_matrix" 3 3 r ++ calMatrix 2 "translation_vector" 3 1 t ++ calMatrix 2 "fundamental_matrix" 3 3 f ++
    calMatrix 2 "essential_matrix" 3 3 e)

/-- camera_calibrator.py L1442-1553 `StereoCalibrator.yaml`: the distortion coefficients are the first row. -/
def stereoYaml (l r : CalCamera) (x : CalExtrinsics) (a : CalAbout) : Res Text := do
  let dl ← rangeRes (fun i => l.d.at 0 i) l.d.cols
  let left ← calCameraLines 2 l dl
  let dr ← rangeRes (fun i => r.d.at 0 i) r.d.cols
  let right ← calCameraLines 2 r dr
  let ext ← calExtrinsicsLines x
  .ok (joinCalLines (["%YAML:1.0".toList, calHead "left"] ++ left ++ [calHead "right"] ++ right ++ [calHead "extrinsics"] ++ ext ++
    calAboutLines a))

/-! ## Reading: `cv2.FileStorage` for files of this form

A file is a list of lines `key: value`; what is indented deeper after a line belongs to it. OpenCV's reader is trusted to agree with
this on files of this form (camera_models.py L38, L244). -/

/-- Indentation of a line (camera_models.py L38). -/
def calIndent (l : Text) : ℕ := (l.takeWhile (· = ' ')).length

/-- Key of a line (camera_models.py L73-79). -/
def calKey (l : Text) : Text := (l.dropWhile (· = ' ')).takeWhile (· ≠ ':')

/-- Value of a line (camera_models.py L73-79). -/
def calValue (l : Text) : Text := stripBlanks ((l.dropWhile (· ≠ ':')).drop 1)

/-- `fs.getNode(k)` (camera_models.py L73-79, L246-248): the value in the line and the lines below it. -/
def getNode (ind : ℕ) (k : String) : List Text → Option (Text × List Text)
  | [] => none
  | l :: ls =>
    if calIndent l = ind ∧ calKey l = k.toList then some (calValue l, ls.takeWhile fun x => ind < calIndent x) else getNode ind k ls

/-- The value of a run of digits (camera_models.py L74-79). -/
def digitsValue (t : Text) : ℕ := t.foldl (fun n c => n * 10 + (c.toNat - 48)) 0

/-- A decimal number (camera_models.py L74-79). -/
def readNumber (t : Text) : Option ℚ :=
  let s := stripBlanks t
  let u := if s.head? = some '-' then s.drop 1 else s
  let a := u.takeWhile (· ≠ '.')
  let b := (u.dropWhile (· ≠ '.')).drop 1
  if a ≠ [] ∧ a.all Char.isDigit ∧ b.all Char.isDigit then
    some ((if s.head? = some '-' then -1 else 1) * ((digitsValue (a ++ b) : ℚ) / 10 ^ b.length))
  else none

/-- `.real()`, then `int` (camera_models.py L74-75). Only what is written by auv_cal is read: a number without sign. -/
def nodeNat (n : Option (Text × List Text)) : Option ℕ := n.bind fun v => (readNumber v.1).map fun q => ⌊q⌋₊

/-- `[f(x) for x in l]`, if every one succeeds (camera_models.py L76). -/
def allSome {α β : Type} (f : α → Option β) : List α → Option (List β)
  | [] => some []
  | x :: xs => (f x).bind fun y => (allSome f xs).map (y :: ·)

/-- A list of numbers in brackets (camera_models.py L76). -/
def readNumbers (t : Text) : Option (List ℚ) :=
  if t.head? = some '[' ∧ t.getLast? = some ']' then allSome readNumber (splitAtSep (· = ',') (t.drop 1).dropLast) else none

/-- `.mat()` (camera_models.py L76-79, L260-264): the number of values must be that of the shape. -/
def nodeMat (ind : ℕ) (n : Option (Text × List Text)) : Option NpMat :=
  n.bind fun v =>
    if v.1 = "!!opencv-matrix".toList then
      (nodeNat (getNode ind "rows" v.2)).bind fun r =>
      (nodeNat (getNode ind "cols" v.2)).bind fun c =>
      (getNode ind "data" v.2).bind fun w => (readNumbers w.1).bind fun d =>
      if d.length = r * c then some ⟨r, c, d⟩ else none
    else none

/-- camera_models.py L72-79 `MonoCamera.from_node`. -/
def cameraFromNode (ind : ℕ) (ls : List Text) : Option CalCamera :=
  (getNode ind "camera_name" ls).bind fun name =>
  (nodeNat (getNode ind "image_width" ls)).bind fun w =>
  (nodeNat (getNode ind "image_height" ls)).bind fun h =>
  (nodeMat (ind + 2) (getNode ind "camera_matrix" ls)).bind fun K =>
  (nodeMat (ind + 2) (getNode ind "distortion_coefficients" ls)).bind fun d =>
  (nodeMat (ind + 2) (getNode ind "rectification_matrix" ls)).bind fun R =>
  (nodeMat (ind + 2) (getNode ind "projection_matrix" ls)).map fun P => ⟨w, h, name.1, K, d, R, P⟩

/-- camera_models.py L36-39 `MonoCamera(filename)`. -/
def readMono (t : Text) : Option CalCamera := cameraFromNode 0 (splitAtSep (· = '\n') t)

/-- camera_models.py L259-264 `StereoCamera.from_node`, for files that have a fundamental matrix. -/
def extrinsicsFromNode (ls : List Text) : Option CalExtrinsics :=
  (nodeMat 4 (getNode 2 "rotation_matrix" ls)).bind fun R =>
  (nodeMat 4 (getNode 2 "translation_vector" ls)).bind fun T =>
  (nodeMat 4 (getNode 2 "fundamental_matrix" ls)).bind fun F =>
  (nodeMat 4 (getNode 2 "essential_matrix" ls)).map fun E => ⟨R, T, F, E⟩

/-- camera_models.py L237-248 `StereoCamera(filename)`. -/
def readStereo (t : Text) : Option (CalCamera × CalCamera × CalExtrinsics) :=
  let ls := splitAtSep (· = '\n') t
  (getNode 0 "left" ls).bind fun l => (cameraFromNode 2 l.2).bind fun left =>
  (getNode 0 "right" ls).bind fun r => (cameraFromNode 2 r.2).bind fun right =>
  (getNode 0 "extrinsics" ls).bind fun x => (extrinsicsFromNode x.2).map fun ext => (left, right, ext)

/-! ## Writing by the camera models

`MonoCamera.to_str` and `StereoCamera.to_str` of /repo/src/oplab/camera_models.py. -/

/-- console.py L214-236 `Console.write_metadata`. -/
def metadataLines (a : CalAbout) : List Text :=
  [calLine 0 "date" ('"' :: (a.date ++ ['"', ' '])), calLine 0 "user" ('"' :: (a.user ++ ['"', ' '])),
    calLine 0 "host" ('"' :: (a.host ++ ['"', ' '])), calLine 0 "version" ('"' :: (a.version ++ ['"', ' ']))]

/-- A line that is only written if there is a value (camera_models.py L163-166). -/
def optionalLine (key : String) : Option Text → List Text
  | none => []
  | some v => [calLine 0 key v]

/-- camera_models.py L94-160: the lines of a camera; the distortion coefficients are the first column, whatever the shape. -/
def toStrLines (ind : ℕ) (c : CalCamera) : Res (List Text) := do
  let d ← rangeRes (fun i => c.d.at i 0) c.d.rows
  calCameraLines ind c d

/-- camera_models.py L81-167 `MonoCamera.to_str(num_images, error)`. -/
def monoToStr (c : CalCamera) (a : CalAbout) (images error : Option Text) : Res Text := do
  let cam ← toStrLines 0 c
  .ok (joinCalLines (["%YAML:1.0".toList] ++ cam ++ metadataLines a ++ optionalLine "number_of_images" images ++
    optionalLine "avg_reprojection_error" error))

/-- camera_models.py L273-297: a matrix after its first line. -/
def plainMatrix (rows cols : ℕ) (data : List ℚ) : List Text :=
  [calLine 4 "rows" (decDigits rows), calLine 4 "cols" (decDigits cols), calLine 4 "data" ('[' :: (joinNumbers data ++ [']']))]

/-- camera_models.py L272-298: the relative pose; there is no line break between `extrinsics:` and the first matrix. -/
def toStrExtrinsics (x : CalExtrinsics) : Res (List Text) := do
  let r ← x.R.flat 9
  let t ← rangeRes (fun i => x.T.at i 0) x.T.rows
  let f ← x.F.flat 9
  let e ← x.E.flat 9
  .ok (["extrinsics:  rotation_matrix:".toList] ++ plainMatrix 3 3 r ++ ["  translation_vector:".toList] ++ plainMatrix 1 3 t ++
    ["  fundamental_matrix:".toList] ++ plainMatrix 3 3 f ++ ["  essential_matrix:".toList] ++ plainMatrix 3 3 e)

/-- camera_models.py L266-300 `StereoCamera.to_str`. -/
def stereoToStr (l r : CalCamera) (x : CalExtrinsics) (a : CalAbout) : Res Text := do
  let left ← toStrLines 2 l
  let right ← toStrLines 2 r
  let ext ← toStrExtrinsics x
  .ok (joinCalLines (["%YAML:1.0".toList, calHead "left"] ++ left ++ [calHead "right"] ++ right ++ ext ++ metadataLines a))

end Oplab
