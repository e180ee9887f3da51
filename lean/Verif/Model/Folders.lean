import Verif.Model.Basic

/-!
Model of /repo/src/oplab/folder_structure.py. A path is the list of its parts after `resolve`
(`Path(path).resolve(strict=False)`, L48); symbolic links are outside the model.
-/

namespace Oplab

/-- The parts of a resolved path. -/
abbrev PathParts := List String

/-- folder_structure.py L24-29 `change_subfolder`: `parts.index(prior)` fails (ValueError) when the part is
absent, otherwise the first occurrence is replaced. The branches L30-43 create a directory only when
`is_dir()` holds of a path that does not exist, or `is_file()` of a path whose parent does not exist; neither
can happen, so they are left out. -/
def changeSubfolder (path : PathParts) (prior new : String) : Res PathParts :=
  if prior ∈ path then .ok (path.set (path.idxOf prior) new) else .error .valueError

/-- folder_structure.py L47-65 `get_folder`. Both final branches end the program (`Console.quit`). -/
def getFolder (path : PathParts) (name : String) : Res PathParts :=
  if name ∈ path then .ok path
  else if "processed" ∈ path then changeSubfolder path "processed" name
  else if "raw" ∈ path then changeSubfolder path "raw" name
  else if "configuration" ∈ path then changeSubfolder path "configuration" name
  else .error .quit

/-- folder_structure.py L79-80. -/
def getConfigFolder (path : PathParts) : Res PathParts := getFolder path "configuration"
/-- folder_structure.py L83-84. -/
def getRawFolder (path : PathParts) : Res PathParts := getFolder path "raw"
/-- folder_structure.py L87-88. -/
def getProcessedFolder (path : PathParts) : Res PathParts := getFolder path "processed"

/-- What a directory of the file system holds. -/
inductive FsNode where
  | file (name : String)
  | dir (name : String) (children : List FsNode)

/-- folder_structure.py L68-76 `get_file_list`: the files below a directory, as paths from it, in the order
`iterdir` gives. -/
def fileList : List FsNode → List PathParts
  | [] => []
  | .file n :: rest => [n] :: fileList rest
  | .dir n cs :: rest => (fileList cs).map (n :: ·) ++ fileList rest

/-- What is left of the children of a directory after the loop of `remove_directory`
(folder_structure.py L122-135): every directory is emptied and removed (`rmdir` fails, OSError, on a directory
that is not empty), every file unlinked. -/
def removeChildren : List FsNode → Res (List FsNode)
  | [] => .ok []
  | .file _ :: rest => removeChildren rest
  | .dir _ cs :: rest => do
    let left ← removeChildren cs
    if left.isEmpty then removeChildren rest else .error .valueError

end Oplab
