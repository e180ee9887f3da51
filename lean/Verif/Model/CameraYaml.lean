import Verif.Model.Config
import Verif.Model.CameraSystem

/-!
Model of reading camera.yaml: `CameraSystem.__init__`, `CameraSystem._parse` and `CameraEntry.__init__` of
`/repo/src/oplab/camera_system.py` (L88-145, L259-287, L304-316), and the comparison of the cameras with those of mission.yaml
(`/repo/src/correct_images/correct_images.py` L529-552).  A document is what `yaml.safe_load` returns.
-/

namespace Oplab

/-- camera_system.py L99-102: the name of a camera, in characters. -/
def cameraLabel (name : List Char) : List Char :=
  if '/' ∈ name then (name.drop 1).map fun c => if c = '/' then '_' else c else name

/-- What a `CameraEntry` holds after `__init__` (camera_system.py L88-145). `times` says whether it has a `convert_filename`. -/
structure CameraInfo where
  name : String
  topic : String
  type : String
  bitDepth : Y
  path : Y
  extension : Y
  timestampFile : Y
  columns : Y
  format : Y
  times : Bool

/-- Whether a value is `None`. (camera_system.py L119) -/
def Y.isNull : Y → Bool
  | .null => true
  | _ => false

/-- camera_system.py L105-111: the type must be one of the allowed ones; anything else ends the program. -/
def cameraType : Y → Res String
  | .str t => if cameraTypeOk t = true then .ok t else .error .quit
  | _ => .error .quit

/-- camera_system.py L117-118: whether the images are in bag files. -/
def Y.isBag : Y → Bool
  | .str s => s == "bag"
  | _ => false

/-- camera_system.py L119-145 with filename_to_date.py L31-42: whether times can be computed; the file with the times is read only
if both it and its columns are given.  `openStamps` is `resolve` and `read_timestamp_file`. -/
def cameraTimes (openStamps : Y → Y → Res Unit) (extension file columns format : Y) : Res Bool :=
  if extension.isBag = true then .ok false
  else if file.isNull = true ∧ format.isNull = true then .error .quit
  else if file.isNull = false ∧ columns.isNull = false then
    match openStamps file columns with
    | .ok _ => .ok true
    | .error e => .error e
  else .ok true

/-- camera_system.py L98-145: the entry of a mapping. A name that is not a text is a `TypeError` (simplification: Python
accepts a list there). -/
def cameraInfoDict (openStamps : Y → Y → Res Unit) (n : Node) : Res CameraInfo := do
  let y ← n.req "name"
  let name ← y.asText
  let t ← n.req "type"
  let type ← cameraType t
  let depth ← n.req "bit_depth"
  let path ← n.req "path"
  let ext ← n.req "extension"
  let times ← cameraTimes openStamps ext (n.getD "timestamp_file" .null) (n.getD "columns" .null) (n.getD "filename_to_date" .null)
  .ok ⟨String.ofList (cameraLabel name.toList), name, type, depth, path, ext, n.getD "timestamp_file" .null,
    n.getD "columns" .null, n.getD "filename_to_date" .null, times⟩

/-- camera_system.py L88-145 `CameraEntry(node)`; `none` is the entry of an empty item, which has no name (L97). -/
def cameraInfo (openStamps : Y → Y → Res Unit) : Y → Res (Option CameraInfo)
  | .null => .ok none
  | .dict n => do
    let c ← cameraInfoDict openStamps n
    .ok (some c)
  | _ => .error .typeError

/-- A `CameraSystem` (camera_system.py L267-268): `none` as system is `None`. -/
structure CameraSystemInfo where
  system : Option Y
  cameras : List (Option CameraInfo)

/-- camera_system.py L315: the values that the loop over the cameras goes through; the keys of a mapping and the letters of a text
are texts, which `CameraEntry` does not accept. -/
def cameraItems : Y → Res (List Y)
  | .list l => .ok l
  | .dict d => .ok (d.map fun p => .str p.1)
  | .str s => .ok (s.toList.map fun c => .str (String.ofList [c]))
  | _ => .error .typeError

/-- camera_system.py L315-316: the loop. -/
def cameraLoop (openStamps : Y → Y → Res Unit) : List Y → Res (List (Option CameraInfo))
  | [] => .ok []
  | y :: l => do
    let c ← cameraInfo openStamps y
    let cs ← cameraLoop openStamps l
    .ok (c :: cs)

/-- Whether a value is a given text. (camera_system.py L305) -/
def Y.isText (k : String) : Y → Bool
  | .str s => s == k
  | _ => false

/-- `k in v` for a value that is no mapping (camera_system.py L305): a `TypeError` unless it is a list or a text. -/
def Y.contains (k : String) : Y → Res Bool
  | .list l => .ok (l.any (Y.isText k))
  | .str s => .ok (decide (k.toList <:+: s.toList))
  | .dict d => .ok (d.lookup k).isSome
  | _ => .error .typeError

/-- camera_system.py L304-316 `_parse`. -/
def parseCameraSystem (openStamps : Y → Y → Res Unit) (doc : Y) : Res CameraSystemInfo :=
  match doc with
  | .dict d =>
    match d.lookup "camera_system" with
    | none => .error .quit
    | some sys =>
      match d.lookup "cameras" with
      | none => .error .quit
      | some y => do
        let items ← cameraItems y
        let cs ← cameraLoop openStamps items
        .ok ⟨some sys, cs⟩
  | y => do
    let b ← y.contains "camera_system"
    if b = true then .error .typeError else .error .quit

/-- How opening the file ends. (camera_system.py L277-286) -/
inductive YamlFile where
  | missing
  | forbidden
  | holds (doc : Y)

/-- camera_system.py L259-287 `CameraSystem(filename, raw_folder)`: without a file and without folder the system is empty; with
a folder only, `None.open` is an `AttributeError`. -/
def openCameraSystem (openStamps : Y → Y → Res Unit) (file : Option YamlFile) (folder : Bool) : Res CameraSystemInfo :=
  match file with
  | none => if folder = false then .ok ⟨none, []⟩ else .error .attributeError
  | some .missing => .error .quit
  | some .forbidden => .error .quit
  | some (.holds doc) => parseCameraSystem openStamps doc

/-- correct_images.py L529-552: whether a camera of mission.yaml is found among those of camera.yaml; `none` stands for the
`AttributeError` of an entry without name. The types are left out: `typesAgree`. -/
def findsCamera (name : Y) : List (Option CameraInfo) → Res Bool
  | [] => .ok false
  | none :: _ => .error .attributeError
  | some c :: l => do
    let b ← findsCamera name l
    .ok (name.isText c.name || b)

end Oplab
