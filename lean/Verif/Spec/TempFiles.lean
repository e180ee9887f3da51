import Verif.Model.TempFiles

/-! # Specification for C249 -/

namespace Oplab.Spec
open Oplab
variable {F : Type} [DecidableEq F]

/-- The names of the temporary files differ from each other and from the files in the folder. -/
structure FreshNames (r : TempRun F) (fs : List F) : Prop where
  images : r.imagesFile ∉ fs
  distances : r.distancesFile ∉ fs
  bins : ∀ b, r.binFile b ∉ fs
  maps : r.imagesFile ≠ r.distancesFile
  imagesBin : ∀ b, r.binFile b ≠ r.imagesFile
  distancesBin : ∀ b, r.binFile b ≠ r.distancesFile
  binsDiffer : ∀ a b, r.binFile a = r.binFile b → a = b

/-- The process of bin `b`, which has done `steps` steps, is between making its file (its second step) and removing it (after one step for each of
the images and one for the statistic). -/
def InUse (r : TempRun F) (b steps : Nat) : Prop :=
  ∃ count, r.counts[b]? = some count ∧ 10 ≤ count ∧ r.smoothing ∈ ["mean_trimmed", "median", "ransac_mean"] ∧
    2 ≤ steps ∧ steps ≤ min count r.maxBin + 3

/-- Full property: however a run ends, it leaves no files. -/
def NoFilesLeft : Prop :=
  ∀ (r : TempRun Nat) (fs : List Nat) (e : TempEnd), FreshNames r fs → (∀ f, r.locked f = false) → ∀ f, f ∈ tempFiles r fs e ↔ f ∈ fs

/-- Full property: `cleanup` removes what an interrupted run has left. -/
def CleanupRemoves : Prop :=
  ∀ (r : TempRun Nat) (fs : List Nat) (e : TempEnd), FreshNames r fs → (∀ f, r.locked f = false) →
    ∀ f, f ∈ tempFold r (tempFiles r fs e) (tempCleanup r) ↔ f ∈ fs

end Oplab.Spec
