import Verif.Model.KoyoFiles

/-! # Specification for C251 -/

namespace Oplab.Spec
open Oplab

/-- A position file as the comment of the code says (koyo20rov.py L318-319): a `.csv` file whose name does not end in FIX. -/
def PositionFile (name : List Char) : Prop := ∃ stem, name = stem ++ ['.', 'c', 's', 'v'] ∧ ¬ ∃ start, stem = start ++ ['F', 'I', 'X']

/-- Full property: exactly the position files are read. -/
def PositionFilesRead : Prop := ∀ name, koyoPattern name = true ↔ PositionFile name

/-- Full property: the records do not depend on the order in which the files are listed. -/
def ListingFree : Prop :=
  ∀ (files files' : List (List (Option (ℚ × ℕ)))), files.Perm files' → ∀ l l', shipRecords files = .ok l → shipRecords files' = .ok l' → l = l'

/-- All inputs besides the position files exist. -/
def InputsExist (d : KoyoDive) : Prop :=
  d.dive = true ∧ d.turns ≠ none ∧ d.laser ≠ none ∧ d.camera ≠ none ∧ d.vehicle = true ∧ d.mission = true

end Oplab.Spec
