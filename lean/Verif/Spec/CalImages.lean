import Mathlib.Data.Nat.Notation
import Verif.Model.CalImages

/-! # Specification for C256 -/

namespace Oplab.Spec
open Oplab

/-- The image is in one of the folders that exist. -/
def InDirs (dirs : List ImageDir) (p : ImagePath) : Prop := ∃ d ∈ dirs, ∃ l, d.names = some l ∧ ∃ n ∈ l, p = d.path ++ [n]

/-- The same folder, listed in another order. -/
def SameDir (d e : ImageDir) : Prop :=
  d.path = e.path ∧ ((d.names = none ∧ e.names = none) ∨ ∃ l m, d.names = some l ∧ e.names = some m ∧ l.Perm m)

/-- Full property: every image is used once. -/
def ImagesOnce : Prop :=
  ∀ dirs : List ImageDir, (∀ d ∈ dirs, ∀ l, d.names = some l → l.Nodup) → (collectImages id dirs).Nodup

/-- Full property: the file with the times does not depend on the order of a listing. -/
def StampFileListingFree : Prop := ∀ a b : List ℕ, a.Perm b → resolveStampFile a = resolveStampFile b

end Oplab.Spec
