import Verif.Model.Basic
import Mathlib.Data.List.Sort
import Mathlib.Order.Lattice

/-! # Images of a camera and their times

`/repo/src/oplab/camera_system.py` (L-numbers without file name) and `/repo/src/oplab/filename_to_date.py`. The results of
`glob` are parameters, in the order of the file system. -/

namespace Oplab

section
variable {I T : Type}

/-- What `glob` finds for the path of a camera. -/
structure DiveFolder (I : Type) where
  /-- camera_system.py L188-190: files with the extension in the folder, for a path without wildcard. -/
  inFolder : List I
  /-- camera_system.py L191-193: files beside the folder whose name starts with the name of the folder. -/
  beside : List I
  /-- camera_system.py L164-186: for every folder that matches the path up to the first wildcard, the images that match
  the rest. -/
  folders : List (List I)

/-- camera_system.py L160-196 without the sort (L198): the images, by the number of parts of the path separated by wildcards. -/
def findImages (parts : ℕ) (d : DiveFolder I) : Res (List I) :=
  if parts = 2 ∨ parts = 3 ∨ parts = 4 then
    match d.folders with
    | f :: _ => .ok f
    | [] => .error .indexError
  else if parts = 1 then (if d.inFolder.length = 0 then .ok d.beside else .ok d.inFolder)
  else .error .quit

/-- The two lists that a `CameraEntry` keeps (L89-90). -/
structure CameraLists (I T : Type) where
  images : List I
  stamps : List T

/-- camera_system.py L150-204 `image_list`: the list is kept once it is not empty. -/
def imageList [LinearOrder I] (parts : ℕ) (d : DiveFolder I) (s : CameraLists I T) : Res (CameraLists I T) :=
  match s.images with
  | _ :: _ => .ok s
  | [] => do
    let l ← findImages parts d
    .ok { s with images := l.insertionSort (· ≤ ·) }

/-- camera_system.py L216-218: the loop over the images; the times are appended one by one, so that those before a name that cannot be converted
stay in the list. -/
def stampLoop (convert : I → Res T) : List I → List T × Option Err
  | [] => ([], none)
  | p :: l =>
    match convert p with
    | .error e => ([], some e)
    | .ok t => (t :: (stampLoop convert l).1, (stampLoop convert l).2)

/-- camera_system.py L206-219 `stamp_list`: the lists after the call, and the exception if there is one. -/
def stampList [LinearOrder I] (convert : I → Res T) (parts : ℕ) (d : DiveFolder I) (s : CameraLists I T) :
    CameraLists I T × Option Err :=
  match s.stamps with
  | _ :: _ => (s, none)
  | [] =>
    match imageList parts d s with
    | .error e => (s, some e)
    | .ok s' => ({ s' with stamps := (stampLoop convert s'.images).1 }, (stampLoop convert s'.images).2)

/-- One use of a camera: the images or the times are asked for; the folder may have changed since the last use. -/
inductive CameraUse (I : Type) where
  | images (d : DiveFolder I)
  | stamps (d : DiveFolder I)

/-- Effect of one use on the lists of the camera. -/
def useCamera [LinearOrder I] (convert : I → Res T) (parts : ℕ) (s : CameraLists I T) : CameraUse I → CameraLists I T
  | .images d => (imageList parts d s).toOption.getD s
  | .stamps d => (stampList convert parts d s).1

end

/-- filename_to_date.py L47-49: with the format `m` the time of modification, of the file with the name that is given
(L217 of camera_system.py gives the name without its folder). `stat` is `os.stat`, which fails for a missing file. -/
def modificationTime {T : Type} (stat : String → Option T) (name : String) : Res T :=
  match stat name with
  | some t => .ok t
  | none => .error .valueError

/-- camera_system.py L217: the name of a file without its folder, for paths of folder and name. -/
def bareName (p : String × String) : String := p.2

/-- The path of a file. -/
def fullPath (p : String × String) : String := p.1 ++ "/" ++ p.2

/-! ## Timestamp files -/

/-- filename_to_date.py L144-198 `read_timestamp_file`: `lines` are the lines after the header as (index, time); the table is
not read from an empty file, and a file with a header only is an `IndexError` (L151). It is assumed that pandas keeps the
times assigned in the loop over the rows (L189-192). -/
def readTimestampFile {T : Type} (header : Bool) (lines : List (ℤ × T)) : Res (Option (List (ℤ × T))) :=
  if header = false then .ok none
  else match lines with
    | [] => .error .indexError
    | l => .ok (some l)

/-- filename_to_date.py L135-142: the time of an index; several rows with the index give a table instead of a number
(`TypeError` when it is used). -/
def stampOfIndex {T : Type} (table : Option (List (ℤ × T))) (i : ℤ) : Res T :=
  match table with
  | none => .error .quit
  | some rows =>
    match rows.filter fun r => r.1 = i with
    | [] => .error .keyError
    | [r] => .ok r.2
    | _ => .error .typeError

/-- filename_to_date.py L44-54 `__call__`: the time of a name. `Path(None)` (L51) is a `TypeError` if the camera has no format for
its file names. -/
def timeOfName {T : Type} (stat : String → Option T) (byFormat : String → String → Res T) (format : Option String) (name : String) :
    Res T :=
  match format with
  | none => .error .typeError
  | some f => if f = "m" then modificationTime stat name else byFormat f name

/-! ## The type of a camera -/

/-- camera_system.py L104: the types that are accepted. -/
def cameraTypeOk (t : String) : Bool := ["grayscale", "rgb", "bgr", "rggb", "grbg", "bggr", "gbrg"].contains t

/-- camera_system.py L103-145 `CameraEntry.__init__`: whether the entry is accepted, and whether times can be computed. -/
def cameraEntry (type extension : String) (timestampFile format : Bool) : Res Bool :=
  if cameraTypeOk type = false then .error .quit
  else if extension = "bag" then .ok false
  else if timestampFile = false ∧ format = false then .error .quit
  else .ok true

end Oplab
