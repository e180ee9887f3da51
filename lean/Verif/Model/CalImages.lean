import Verif.Model.Basic

/-! The images of a calibration, and the file with the times of images. -/

namespace Oplab

/-- Paths by their parts, compared part by part, and parts by code points. (pathlib; /repo/src/auv_cal/calibration.py L46) -/
abbrev ImagePath := List (List Char)

/-- Comparison of two texts by code points. (calibration.py L46) -/
def charsLe : List Char → List Char → Bool
  | [], _ => true
  | _ :: _, [] => false
  | a :: as, b :: bs => if a.toNat < b.toNat then true else if a = b then charsLe as bs else false

/-- `Path.__lt__` or equal. (calibration.py L46) -/
def pathLe : ImagePath → ImagePath → Bool
  | [], _ => true
  | _ :: _, [] => false
  | a :: as, b :: bs => if a = b then pathLe as bs else charsLe a b

/-- A folder of images: its path, and the names that match the pattern as they are listed, `none` if it is no folder.
(calibration.py L37-45) -/
structure ImageDir where
  path : ImagePath
  names : Option (List (List Char))

/-- calibration.py L36-41: the images of one folder. -/
def dirImages (d : ImageDir) : List ImagePath :=
  match d.names with
  | some l => l.map fun n => d.path ++ [n]
  | none => []

/-- calibration.py L33-53 `collect_image_files`. A single folder (L42-45) is a list of one. `resolve` follows symbolic links. -/
def collectImages (resolve : ImagePath → ImagePath) (dirs : List ImageDir) : List ImagePath :=
  ((dirs.flatMap dirImages).mergeSort pathLe).map resolve

/-- The patterns of a calibration. (calibration.py L56-68) -/
inductive BoardPattern where
  | circles | acircles | chessboard
  deriving DecidableEq

/-- calibration.py L56-68 `check_pattern`. -/
def checkPattern (name : String) : Res BoardPattern :=
  if name = "Circles" ∨ name = "circles" then .ok .circles
  else if name = "ACircles" ∨ name = "acircles" then .ok .acircles
  else if name = "Chessboard" ∨ name = "chessboard" then .ok .chessboard
  else .error .quit

/-- /repo/src/oplab/filename_to_date.py L20-28 `resolve`: of the files that match, in the order of their listing, the last one. -/
def resolveStampFile {F : Type} (listing : List F) : Res F :=
  match listing.getLast? with
  | some f => .ok f
  | none => .error .quit

/-- filename_to_date.py L31-41: the file with the times is looked for only if its name and its columns are given. -/
def stampFile {F C : Type} (listing : String → List F) (filename : Option String) (columns : Option C) : Res (Option (F × C)) :=
  match filename, columns with
  | some n, some c => do
    let f ← resolveStampFile (listing n)
    .ok (some (f, c))
  | _, _ => .ok none

end Oplab
