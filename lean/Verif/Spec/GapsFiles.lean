import Verif.Model.GapsFiles

/-! # Specification for C253 -/

namespace Oplab.Spec
open Oplab

/-- A fix of one file, with the name of the file. -/
def inFile (f : List Char) (x : GapsFix) : GapsFileFix :=
  ⟨(f, x.priorShip), (f, x.priorHeading), (f, x.target), (f, x.postShip), (f, x.postHeading), (f, x.at_)⟩

/-- All the lines a fix was computed from are of one file. -/
def OneFile (x : GapsFileFix) : Prop := ∃ f y, x = inFile f y

/-- Full property: what is read from a folder of GAPS logs does not depend on the order of its listing. -/
def GapsListingFree : Prop :=
  ∀ a b : List (List Char × List GapsLine), (a.map Prod.fst).Nodup → a.Perm b → ∀ l, gapsFolder a = .ok l → ∃ l', gapsFolder b = .ok l' ∧ l'.Perm l

/-- Full property: every fix is computed from lines of one log file. -/
def GapsFixOneFile : Prop :=
  ∀ a : List (List Char × List GapsLine), (a.map Prod.fst).Nodup → ∀ l, gapsFolder a = .ok l → ∀ x ∈ l, OneFile x

/-- The time stamps are written differently, and none is that of the origin. -/
def StampsDiffer (l : List (Stamp × Json ℚ)) : Prop :=
  l.Pairwise (fun a b => a.1.text ≠ b.1.text) ∧ ∀ e ∈ l, e.1.text ≠ (Stamp.mk [0] [0]).text

/-- Full property: the navigation file does not depend on the order in which the records were found in the logs. -/
def NavFileOrderFree : Prop :=
  ∀ (origin : Json ℚ) (a b : List (List (Stamp × Json ℚ))), a.flatten.Perm b.flatten →
    parseNav origin (a.map fun r => r.map some) = parseNav origin (b.map fun r => r.map some)

/-- Full property: if the records of a parser can be written to the navigation file, so they can in any other order. -/
def NavFileInvalidFree : Prop :=
  ∀ (origin : Json ℚ) (r r' : List NavRecord), r.Perm r' → (∃ l, parseNav origin [r] = .ok l) → ∃ l, parseNav origin [r'] = .ok l

end Oplab.Spec
