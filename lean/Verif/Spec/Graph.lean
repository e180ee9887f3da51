import Verif.Model.Graph

/-! # Specification for C248 -/

namespace Oplab.Spec
open Oplab
variable {V : Type} [DecidableEq V]

/-- There is an edge from `a` to `b`. -/
def HasEdge (g : GraphDict V) (a b : V) : Prop := ∃ next, g.lookup a = some next ∧ b ∈ next

/-- `p` leads from `a` to `b` along edges. -/
inductive Leads (g : GraphDict V) : V → V → List V → Prop
  | here (a : V) : Leads g a a [a]
  | step {a b c : V} {p : List V} : HasEdge g a b → Leads g b c p → Leads g a c (a :: p)

/-- Full property: after adding an edge there is a path along it. -/
def EdgeAdded (V : Type) [DecidableEq V] : Prop :=
  ∀ (swap : V → V → Bool) (g : GraphDict V) (a b : V), graphPath (addEdge swap g a b) a b ≠ none

end Oplab.Spec
