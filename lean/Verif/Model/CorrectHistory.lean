import Verif.Model.Correct

/-! # Folders of corrected images over many runs -/

namespace Oplab

/-- What a file in a folder of corrected images is (corrector.py L1268-1305 and file_handlers.py L131-148): an image of a run, the list of the
images of a run, or a file that was being written when a run was killed. -/
inductive OutFile
  | image (run : ℕ)
  | list (run : ℕ) (images : List (List Char))
  | cut
deriving DecidableEq

/-- A run of correct_images process for one camera (corrector.py L341-410 and L1239-1306). `images` are the names of the files of the corrected images
in the order in which the parallel tasks write them; `killed` is the number of images that are complete and the files that are being
written when the run is killed. -/
structure CorrectRun where
  force : Bool
  images : List (List Char)
  killed : Option (ℕ × List (List Char))

/-- corrector.py L1304. -/
def fileListName : List Char := "filelist.csv".toList

/-- corrector.py L1261-1305: the images are written one by one, the list after all of them. -/
def runFiles (i : ℕ) (r : CorrectRun) : List (List Char × OutFile) :=
  match r.killed with
  | none => r.images.map (fun n => (n, OutFile.image i)) ++ [(fileListName, .list i r.images)]
  | some (k, open_) => (r.images.take k).map (fun n => (n, OutFile.image i)) ++ open_.map fun n => (n, OutFile.cut)

/-- corrector.py L341-410: run `i` with the guard of L473-488. -/
def correctStep (folder : String) (fs : CorrFs OutFile) (i : ℕ) (r : CorrectRun) : CorrFs OutFile :=
  (processRun r.force fs folder (runFiles i r)).1

/-- Runs one after another, numbered from `i` (corrector.py L341-410). -/
def correctSteps (folder : String) (fs : CorrFs OutFile) (i : ℕ) : List CorrectRun → CorrFs OutFile
  | [] => fs
  | r :: rs => correctSteps folder (correctStep folder fs i r) (i + 1) rs

end Oplab
