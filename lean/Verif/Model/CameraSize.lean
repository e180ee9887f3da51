import Verif.Model.CameraSystem

/-!
Model of the size of the images of a camera and the topic of its images, over the dives of a run of correct_images:
`/repo/src/oplab/camera_system.py` L31-73, L221-250 and `/repo/src/correct_images/corrector.py` L159-183.
-/

namespace Oplab

/-- `numpy` shape of an image: height, width, and the number of channels if there is a third axis. (camera_system.py L65-73) -/
structure Shape where
  height : ℕ
  width : ℕ
  channels : Option ℕ
  deriving DecidableEq

/-- camera_system.py L65-73 `get_image_size`. -/
def Shape.size (s : Shape) : List ℕ := [s.height, s.width, s.channels.getD 1]

/-- A message of a bag: its topic, and the shape of the image in it; `none` if it cannot be decoded. (camera_system.py L49-60) -/
structure BagShape where
  topic : String
  image : Option Shape

/-- camera_system.py L49-61 `rosbag_image_loader`: the image of the first message of the topic. -/
def bagShape (topic : String) : List BagShape → Option Shape
  | [] => none
  | m :: l => if m.topic = topic then m.image else bagShape topic l

/-- camera_system.py L241-247: the first bag with an image. -/
def bagsShape {I : Type} (topic : String) (bag : I → List BagShape) : List I → Option Shape
  | [] => none
  | p :: l =>
    match bagShape topic (bag p) with
    | some s => some s
    | none => bagsShape topic bag l

/-- What can be read of the files of a camera. (camera_system.py L234, L49) -/
structure ImageFiles (I : Type) where
  /-- `imageio.imread`; `none` if it fails -/
  image : I → Option Shape
  /-- `rosbag.Bag` -/
  bag : I → List BagShape

/-- What a `CameraEntry` holds (camera_system.py L88-111), its ending and the number of parts of its path being fixed. -/
structure SizedCamera (I : Type) where
  images : List I
  topic : String
  properties : List ℕ

/-- camera_system.py L227-233: the endings that are read with imageio. -/
def imageEndings : List String := ["tif", "jpg", "JPG", "png", "PNG"]

/-- camera_system.py L221-250 `image_properties`; `files` is the folder of the camera at that time.  An image that cannot be
read is a `ValueError` here. -/
def imageProperties {I : Type} [LinearOrder I] (extension : String) (parts : ℕ) (d : DiveFolder I) (files : ImageFiles I)
    (c : SizedCamera I) : Res (SizedCamera I) := do
  let l ← imageList (T := Unit) parts d ⟨c.images, []⟩
  match l.images with
  | [] => .error .indexError
  | first :: _ =>
    if extension ∈ imageEndings then
      match files.image first with
      | some s => .ok { c with images := l.images, properties := s.size }
      | none => .error .valueError
    else if extension = "raw" then .ok { c with images := l.images, properties := [1024, 1280, 1] }
    else if extension = "bag" then
      match bagsShape c.topic files.bag l.images with
      | some s => .ok { c with images := l.images, properties := s.size }
      | none => .ok { c with images := l.images }
    else .error .quit

/-- corrector.py L173-177: the topic that the mission has for the camera, if any. -/
def missionTopic (name : String) : List (String × Option String) → Option String
  | [] => none
  | (n, some t) :: l => if n = name then some t else missionTopic name l
  | (_, none) :: l => missionTopic name l

/-- What is there when a path is set: the cameras of the mission with their topics, and the folder of the camera. (corrector.py
L165, camera_system.py L158) -/
structure DiveSetup (I : Type) where
  mission : List (String × Option String)
  folder : DiveFolder I
  files : ImageFiles I

/-- corrector.py L159-183 `set_path`: the camera afterwards, and height, width and channels. -/
def setPath {I : Type} [LinearOrder I] (name extension : String) (parts : ℕ) (c : SizedCamera I) (d : DiveSetup I) :
    Res (SizedCamera I × ℕ × ℕ × ℕ) := do
  let c := { c with topic := (missionTopic name d.mission).getD c.topic }
  let c ← imageProperties extension parts d.folder d.files c
  let h ← pyGet c.properties 0
  let w ← pyGet c.properties 1
  let n ← pyGet c.properties 2
  .ok (c, h, w, n)

/-- corrector.py L285-292: the sizes in use for each dive of a parse. -/
def setPaths {I : Type} [LinearOrder I] (name extension : String) (parts : ℕ) (c : SizedCamera I) :
    List (DiveSetup I) → Res (List (String × ℕ × ℕ × ℕ))
  | [] => .ok []
  | d :: l => do
    let r ← setPath name extension parts c d
    let rest ← setPaths name extension parts r.1 l
    .ok ((r.1.topic, r.2) :: rest)

end Oplab
