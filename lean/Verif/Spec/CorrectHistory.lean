import Verif.Model.CorrectHistory

/-! # C275: folders of corrected images over many runs -/

namespace Oplab.Spec

/-- The names of images have an extension and are not that of the list; the files being written are images of the run or the list. -/
structure NamedWell (r : CorrectRun) : Prop where
  dotted : ∀ n ∈ r.images, '.' ∈ n
  not_list : "filelist.csv".toList ∉ r.images
  opened : ∀ k o, r.killed = some (k, o) → ∀ n ∈ o, n ∈ r.images ∨ n = "filelist.csv".toList

/-- The folder holds the images of run `i`, the list of them, and nothing else. -/
structure HoldsRun (fs : CorrFs OutFile) (folder : String) (i : ℕ) (images : List (List Char)) : Prop where
  listed : fs.content folder "filelist.csv".toList = some (.list i images)
  there : ∀ n ∈ images, fs.content folder n = some (.image i)
  nothing_else : ∀ n, n ∉ images → n ≠ "filelist.csv".toList → fs.content folder n = none

/-- C275 in full: after a run that is accepted and not killed, the folder holds what the run corrected, whatever was done before. -/
def HoldsLastCorrection : Prop :=
  ∀ (folder : String) (before : List CorrectRun) (r : CorrectRun), (∀ x ∈ r :: before, NamedWell x) → r.force = true → r.killed = none →
    HoldsRun (correctSteps folder [] 0 (before ++ [r])) folder before.length r.images

/-- The list describes the images that are there, at any time. -/
def ListIsTrue : Prop :=
  ∀ (folder : String) (runs : List CorrectRun), (∀ x ∈ runs, NamedWell x) → ∀ i images,
    (correctSteps folder [] 0 runs).content folder "filelist.csv".toList = some (.list i images) →
    ∀ n ∈ images, (correctSteps folder [] 0 runs).content folder n = some (.image i)

/-- The command that was killed, given again, completes the work. -/
def CorrectionCanBeRepeated : Prop :=
  ∀ (folder : String) (images : List (List Char)) (killed : ℕ × List (List Char)), NamedWell ⟨false, images, some killed⟩ →
    HoldsRun (correctSteps folder [] 0 [⟨false, images, some killed⟩, ⟨false, images, none⟩]) folder 1 images

end Oplab.Spec
