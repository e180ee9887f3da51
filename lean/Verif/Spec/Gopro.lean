import Verif.Model.Gopro
import Mathlib.Data.Rat.Defs

/-!
# Lists of stereo pairs
-/

namespace Oplab.Spec
open Oplab

/-- The file of `name` in the folder `cam` of the dive whose raw folder is `raw`. -/
def inDive (raw : PathParts) (cam : WrittenPath) (name : String) : PathParts :=
  if cam.absolute then cam.parts ++ [name] else raw ++ cam.parts ++ [name]

/-- Full property: wherever the command is started, the pairs are those of the list beside the first camera's folder in the
dive whose images exist in the dive. -/
def GoproPairs : Prop :=
  ∀ (isFile : PathParts → Bool) (tables : PathParts → Option (List (GoproRow ℚ))) (cwd raw : PathParts) (cam1 cam2 : WrittenPath)
    (rows : List (GoproRow ℚ)), "raw" ∈ raw → cam1.parts ≠ [] →
    tables (inDive raw ⟨cam1.absolute, cam1.parts.dropLast⟩ "filelist.csv") = some rows →
    ∃ out, parseGopro isFile tables cwd cam1 cam2 = .ok out ∧
      out.map (fun p => (p.epoch, p.left.parts.getLast?, p.right.parts.getLast?)) =
        (rows.filter fun r => isFile (inDive raw cam1 r.left) && isFile (inDive raw cam2 r.right)).map
          fun r => (r.epoch, some r.left, some r.right)

end Oplab.Spec
