import Verif.Model.CameraYaml

/-! Reading camera.yaml. -/

namespace Oplab.Spec
open Oplab

/-- The value of a key that must be there. -/
def Has (n : Node) (k : String) (v : Y) : Prop := n.lookup k = some v

/-- A key is given: it is there and not empty. -/
def Given (n : Node) (k : String) : Prop := ∃ v, n.lookup k = some v ∧ v ≠ .null

/-- The camera types of the manual. -/
def cameraTypes : List String := ["grayscale", "rgb", "bgr", "rggb", "grbg", "bggr", "gbrg"]

/-- A mapping of camera.yaml describes a camera: it has name, type, depth, path and extension, and unless the images are in bags
their times can be told. -/
def DescribesCamera (openStamps : Y → Y → Res Unit) (n : Node) : Prop :=
  (∃ name, Has n "name" (.str name)) ∧ (∃ t ∈ cameraTypes, Has n "type" (.str t)) ∧ (∃ v, Has n "bit_depth" v) ∧
    (∃ v, Has n "path" v) ∧ (∃ v, Has n "extension" v) ∧
    (Has n "extension" (.str "bag") ∨
      (Given n "timestamp_file" ∨ Given n "filename_to_date") ∧
        ∀ f c, Has n "timestamp_file" f → Has n "columns" c → f ≠ .null → c ≠ .null → ∃ u, openStamps f c = .ok u)

/-- A camera is the one that a mapping describes, its name apart. -/
def IsOf (n : Node) (c : CameraInfo) : Prop :=
  Has n "name" (.str c.topic) ∧ Has n "type" (.str c.type) ∧ Has n "bit_depth" c.bitDepth ∧ Has n "path" c.path ∧
    Has n "extension" c.extension ∧ c.timestampFile = (n.lookup "timestamp_file").getD .null ∧
    c.columns = (n.lookup "columns").getD .null ∧ c.format = (n.lookup "filename_to_date").getD .null ∧
    (c.times = false ↔ Has n "extension" (.str "bag"))

/-- The entry of an item: nothing for an empty one. -/
inductive ReadFrom (openStamps : Y → Y → Res Unit) : Y → Option CameraInfo → Prop where
  | empty : ReadFrom openStamps .null none
  | camera (n : Node) (c : CameraInfo) : DescribesCamera openStamps n → IsOf n c →
      c.name = String.ofList (cameraLabel c.topic.toList) → ReadFrom openStamps (.dict n) (some c)

/-- Every camera keeps the name it has in camera.yaml. -/
def KeepsNames : Prop :=
  ∀ openStamps n c, cameraInfoDict openStamps n = .ok c → Has n "name" (.str c.name)

/-- Cameras with different names stay apart. -/
def NamesApart : Prop :=
  ∀ openStamps n m c d, cameraInfoDict openStamps n = .ok c → cameraInfoDict openStamps m = .ok d →
    n.lookup "name" ≠ m.lookup "name" → c.name ≠ d.name

/-- A camera that has the same name in mission.yaml and in camera.yaml is found. -/
def FindsItself : Prop :=
  ∀ openStamps (items : List Y) (cs : List (Option CameraInfo)) (n m : Node) (e : CamEntry) (name : String),
    cameraLoop openStamps items = .ok cs → Y.dict n ∈ items → Has n "name" (.str name) → camLoadDict m = .ok e →
    Has m "name" (.str name) → findsCamera e.name cs = .ok true

/-- Every entry of a system that is read has a name. -/
def AllNamed : Prop :=
  ∀ openStamps doc s, parseCameraSystem openStamps doc = .ok s → ∀ c ∈ s.cameras, c.isSome = true

end Oplab.Spec
