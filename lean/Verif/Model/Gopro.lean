import Verif.Model.Folders

/-!
Model of /repo/src/auv_nav/parsers/parse_stereo_gopro.py.
-/

namespace Oplab

/-- A path as it is written: whether it starts at the root, and its parts. (parse_stereo_gopro.py L24-25) -/
structure WrittenPath where
  absolute : Bool
  parts : PathParts
  deriving DecidableEq

/-- `Path.resolve` (oplab/folder_structure.py L48) and the access to a file by a relative path, from the working directory
`cwd`. -/
def WrittenPath.at (cwd : PathParts) (p : WrittenPath) : PathParts := if p.absolute then p.parts else cwd ++ p.parts

/-- parse_stereo_gopro.py L24, L30 `camera1_filepath.parent / "filelist.csv"`. -/
def WrittenPath.sibling (p : WrittenPath) (name : String) : WrittenPath := ⟨p.absolute, p.parts.dropLast ++ [name]⟩

/-- `path / name`. (parse_stereo_gopro.py L39, L42) -/
def WrittenPath.child (p : WrittenPath) (name : String) : WrittenPath := ⟨p.absolute, p.parts ++ [name]⟩

/-- A row of the list of files. (parse_stereo_gopro.py L34-37) -/
structure GoproRow (K : Type) where
  epoch : K
  left : String
  right : String

/-- A pair of images in the output; both images have the time of the pair. (parse_stereo_gopro.py L45-63) -/
structure GoproPair (K : Type) where
  epoch : K
  left : WrittenPath
  right : WrittenPath

/-- parse_stereo_gopro.py L34-64: the loop over the rows. -/
def goproLoop {K : Type} (isFile : PathParts → Bool) (cwd : PathParts) (cam1 cam2 : WrittenPath) : List (GoproRow K) → List (GoproPair K)
  | [] => []
  | r :: rest =>
    if ¬ isFile ((cam1.child r.left).at cwd) then goproLoop isFile cwd cam1 cam2 rest
    else if ¬ isFile ((cam2.child r.right).at cwd) then goproLoop isFile cwd cam1 cam2 rest
    else ⟨r.epoch, cam1.child r.left, cam2.child r.right⟩ :: goproLoop isFile cwd cam1 cam2 rest

/-- parse_stereo_gopro.py L17-65 `parse_stereo_gopro_images`: `tables` are the lists of files that exist.  The folder of the
dive that is parsed is not used. -/
def parseGopro {K : Type} (isFile : PathParts → Bool) (tables : PathParts → Option (List (GoproRow K))) (cwd : PathParts)
    (cam1 cam2 : WrittenPath) : Res (List (GoproPair K)) := do
  let p ← getRawFolder ((cam1.sibling "filelist.csv").at cwd)
  match tables p with
  | none => .error .valueError
  | some rows => .ok (goproLoop isFile cwd cam1 cam2 rows)

/-- folder_structure.py L91-99 `check_dirs_exist` of a list. -/
def checkDirsExist (isDir : PathParts → Bool) : List PathParts → Bool
  | [] => true
  | d :: rest => if ¬ isDir d then false else checkDirsExist isDir rest

end Oplab
