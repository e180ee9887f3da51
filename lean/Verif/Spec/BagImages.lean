import Verif.Model.BagImages

/-! # Specification for C245 -/

namespace Oplab.Spec
open Oplab

/-- A time that stands for the stamp, in nanoseconds, to within 10 nanoseconds. -/
def StampTime (ns : ℕ) (t : ℚ) : Prop := t ≤ ns / 10 ^ 9 ∧ (ns : ℚ) / 10 ^ 9 < t + 1 / 10 ^ 8

/-- A listing of the folder: each file once, in any order. -/
def Listing {I : Type} (fs : Text → Option I) (names : List Text) : Prop := names.Nodup ∧ ∀ n, n ∈ names ↔ fs n ≠ none

/-- An empty folder. -/
def noFiles {I : Type} : Text → Option I := fun _ => none

/-- A file of the folder that is taken for an image: no text file and no hidden copy. -/
def IsExtracted (n : Text) : Prop := ¬ (".txt".toList <:+: n) ∧ ¬ ("._".toList <:+: n)

instance (n : Text) : Decidable (IsExtracted n) := by unfold IsExtracted; infer_instance

/-- Full property: the time of every image is read from its file. -/
def StampsKept : Prop := ∀ ns : ℕ, ∃ t, extractedTime (extractName ns) = some t ∧ StampTime ns t

/-- Full property: every image of the bags is in the folder after the extraction. -/
def ImagesKept : Prop := ∀ (bags : List (List (ℕ × ℕ))), ∀ b ∈ bags, ∀ m ∈ b, ∃ n, extractRun noFiles bags n = some m.2

/-- Full property: the order of images is the order of their stamps. -/
def OrderKept : Prop := ∀ a b : ℕ, 10 ^ 8 ≤ a → 10 ^ 8 ≤ b → a < b → ∃ s t, extractedTime (extractName a) = some s ∧ extractedTime (extractName b) = some t ∧ s < t

/-- Full property: a file in the folder that is no image does not keep the images from being read. -/
def OtherFilesIgnored : Prop := ∀ names : List Text, ∃ l, parseExtracted names = .ok l

end Oplab.Spec
