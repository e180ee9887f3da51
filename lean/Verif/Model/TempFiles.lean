import Verif.Model.Basic
import Mathlib.Logic.Function.Basic

/-! # Temporary files of the computation of attenuation parameters

Models the files that /repo/src/correct_images/corrector.py and /repo/src/correct_images/tools/memmap.py make and remove in the folder for
temporary files. The bins are computed in processes of their own (corrector.py L844-862, `n_jobs=-2`), whose steps interleave in any order; each
has a copy of the corrector, so what it appends to `memmaps_to_remove` (L1178, L1189, L1200) is not seen by `cleanup`. -/

namespace Oplab
variable {F : Type} [DecidableEq F]

/-- What a run depends on (/repo/src/correct_images/corrector.py L755-1012): the smoothing method, the number of images of each bin, the number of
images for which there is space (L771-778), the names that `create_memmap_name` gives (memmap.py L20-35, unique by `uuid4`) and the files that
may not be removed. -/
structure TempRun (F : Type) where
  smoothing : String
  counts : List Nat
  maxBin : Nat
  imagesFile : F
  distancesFile : F
  binFile : Nat → F
  locked : F → Bool

/-- Steps of a process: make a file, remove it, anything else, and a step that always raises. -/
inductive TempAct (F : Type) where
  | make (f : F)
  | drop (f : F)
  | work
  | raise

/-- `np.memmap(mode="w+")` (/repo/src/correct_images/tools/memmap.py L48-53, L66) and `try_remove` (/repo/src/correct_images/corrector.py L47-60),
which goes on when the file is missing or may not be removed. -/
def tempApply (locked : F → Bool) (fs : List F) : TempAct F → List F
  | .make f => if f ∈ fs then fs else fs ++ [f]
  | .drop f => if locked f then fs else fs.filter (· ≠ f)
  | .work => fs
  | .raise => fs

/-- The images of a bin that are used (/repo/src/correct_images/corrector.py L1136-1142). -/
def binUsed (r : TempRun F) (count : Nat) : Nat := if r.maxBin < count then r.maxBin else count

/-- The smoothing methods that stack the images of a bin in a file (/repo/src/correct_images/corrector.py L1171, L1182, L1193). -/
def stacking (smoothing : String) : Bool := smoothing = "mean_trimmed" || smoothing = "median" || smoothing = "ransac_mean"

/-- corrector.py L1117-1235 `compute_distance_bin`: the distances, then for a stacking method the file, one step for each image that is loaded
into it (memmap.py L56-59), the statistic, the removal of the file; then the figures and the rows of the two maps. -/
def binActs (r : TempRun F) (b : Nat) : List (TempAct F) :=
  match r.counts[b]? with
  | none => []
  | some count =>
    if count < 10 then []
    else if r.smoothing = "mean" then [.work, .work, .work, .work]
    else if stacking r.smoothing then
      [.work, .make (r.binFile b)] ++ List.replicate (binUsed r count) .work ++ [.work, .drop (r.binFile b), .work, .work]
    else [.work, .raise]

/-- One step of the process of bin `b`, as joblib schedules it (/repo/src/correct_images/corrector.py L844-862). -/
def binStep (r : TempRun F) (s : (Nat → Nat) × List F) (b : Nat) : (Nat → Nat) × List F :=
  match (binActs r b)[s.1 b]? with
  | none => s
  | some .raise => s
  | some a => (Function.update s.1 b (s.1 b + 1), tempApply r.locked s.2 a)

/-- Whether all bins are computed, so that `joblib.Parallel` returns (/repo/src/correct_images/corrector.py L851-862). -/
def binsDone (r : TempRun F) (pc : Nat → Nat) : Bool := (List.range r.counts.length).all fun b => pc b = (binActs r b).length

/-- /repo/src/correct_images/corrector.py L826-842: the two maps are made. -/
def tempBefore (r : TempRun F) : List (TempAct F) := [.make r.imagesFile, .make r.distancesFile]

/-- /repo/src/correct_images/corrector.py L864-1012: the maps are saved, parameters and curves computed, the maps removed, then the gains and
statistics are computed and saved. -/
def tempAfter (r : TempRun F) : List (TempAct F) :=
  [.work, .work, .work, .drop r.imagesFile, .drop r.distancesFile, .work, .work]

/-- corrector.py L154-157 `cleanup`, called only at the end (/repo/src/correct_images/correct_images.py L259-266). -/
def tempCleanup (r : TempRun F) : List (TempAct F) := [.drop r.imagesFile, .drop r.distancesFile]

/-- How a run ends: while the maps are made, while the bins are computed in some order of steps, after that, or without an error
(/repo/src/correct_images/correct_images.py L251-266). -/
inductive TempEnd where
  | opening (k : Nat)
  | bins (order : List Nat)
  | after (order : List Nat) (k : Nat)
  | finished (order : List Nat)

/-- Several steps of one process (/repo/src/correct_images/corrector.py L826-1012). -/
def tempFold (r : TempRun F) (fs : List F) (l : List (TempAct F)) : List F := l.foldl (tempApply r.locked) fs

/-- The bins, in some order of steps (/repo/src/correct_images/corrector.py L844-862). -/
def tempBins (r : TempRun F) (fs : List F) (order : List Nat) : (Nat → Nat) × List F :=
  order.foldl (binStep r) (fun _ => 0, tempFold r fs (tempBefore r))

/-- The files in the folder after a run that ended in the given way (/repo/src/correct_images/corrector.py L755-1012). -/
def tempFiles (r : TempRun F) (fs : List F) : TempEnd → List F
  | .opening k => tempFold r fs ((tempBefore r).take k)
  | .bins order => (tempBins r fs order).2
  | .after order k =>
    let s := tempBins r fs order
    if binsDone r s.1 then tempFold r s.2 ((tempAfter r).take k) else s.2
  | .finished order =>
    let s := tempBins r fs order
    if binsDone r s.1 then tempFold r s.2 (tempAfter r ++ tempCleanup r) else s.2

/-- memmap.py L80-104 `memmap_loader`: one image, resized if its size is not that of the stack. -/
def stackOne {P I : Type} (load : P → Res I) (fits : I → Bool) (resize : I → I) : Option P → Res I
  | none => .error .quit
  | some p => do
    let im ← load p
    .ok (if fits im then im else resize im)

/-- memmap.py L38-60 `create_memmap`: the slices of the stack, in the order of the images. -/
def stackAll {P I : Type} (load : P → Res I) (fits : I → Bool) (resize : I → I) : List (Option P) → Res (List I)
  | [] => .ok []
  | p :: ps => do
    let i ← stackOne load fits resize p
    let is ← stackAll load fits resize ps
    .ok (i :: is)

end Oplab
