import Verif.Model.NavExport

/-!
What a reduced navigation file should contain.
-/

namespace Oplab.Spec
open Oplab

/-- The folder has images of exactly one of the two kinds, with this ending. -/
def OneKind (files : List String) (ext : String) : Prop :=
  (ext = ".png" ∨ ext = ".jpg") ∧ (∃ f ∈ files, ext.toList <:+ f.toList) ∧
    ∀ other, (other = ".png" ∨ other = ".jpg") → (∃ f ∈ files, other.toList <:+ f.toList) → other = ext

/-- `out` are the rows that meet `keep`, each once, in the order of their times. -/
def SortedRows {K : Type} [LE K] (keep : ExportRow K → Prop) [DecidablePred keep] (rows out : List (ExportRow K)) : Prop :=
  out.Perm (rows.filter fun r => decide (keep r)) ∧ out.Pairwise fun a b => a.time ≤ b.time

/-- Full property: every image has at most one row in the file that is written. -/
def OneRowForEachImage : Prop :=
  ∀ (stem base : String → String) (short long force outputExists : Bool) (nav : ExportNav ℚ) (files : List String)
    (header : List String) (rows : List (List String)),
    simplifyNav stem base short long force outputExists (some nav) (some files) = .ok (.written header rows) →
      (rows.map fun r => r[0]?).Nodup

end Oplab.Spec
