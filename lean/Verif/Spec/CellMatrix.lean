import Verif.Model.CellMatrix
import Verif.Spec.Transforms

/-! # Cells with three lengths and angles, specification -/

namespace Oplab.Spec
open Oplab

/-- The edges of a cell, as the columns of a matrix: where the three unit vectors go. -/
def edgesOf (m : V3 (V3 ℝ)) : V3 (V3 ℝ) := ⟨matVec m ⟨1, 0, 0⟩, matVec m ⟨0, 1, 0⟩, matVec m ⟨0, 0, 1⟩⟩

/-- Edges of the lengths `a`, `b` and `c`, with the angles in degrees between the second and third, first and third, and first and second. -/
def IsCell (e : V3 (V3 ℝ)) (a b c alpha beta gamma : ℝ) : Prop :=
  (len e.x = a ∧ len e.y = b ∧ len e.z = c) ∧
    dot e.y e.z = b * c * Real.cos (alpha * Real.pi / 180) ∧ dot e.x e.z = a * c * Real.cos (beta * Real.pi / 180) ∧
    dot e.x e.y = a * b * Real.cos (gamma * Real.pi / 180)

end Oplab.Spec
