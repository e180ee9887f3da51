import Mathlib.LinearAlgebra.Matrix.NonsingularInverse
import Mathlib.Data.Real.Basic

/-!
# Covariance matrices

A covariance matrix is a symmetric matrix whose quadratic form is nowhere negative;
`P ≤ P'` when the quadratic form of `P` is nowhere larger than that of `P'`.
-/

namespace Oplab.Spec
open Matrix

variable {n : Type} [Fintype n]

/-- Symmetric and positive semidefinite. -/
def IsCov (P : Matrix n n ℝ) : Prop := Pᵀ = P ∧ ∀ v : n → ℝ, 0 ≤ v ⬝ᵥ (P *ᵥ v)

/-- No larger uncertainty in any direction. -/
def CovLe (P P' : Matrix n n ℝ) : Prop := ∀ v : n → ℝ, v ⬝ᵥ (P *ᵥ v) ≤ v ⬝ᵥ (P' *ᵥ v)

/-- The number `a` is `b` up to whole turns and lies in `[-π, π]`. -/
def WrappedTo (half a b : ℝ) : Prop := -half ≤ a ∧ a ≤ half ∧ ∃ k : ℤ, a = b + k * (2 * half)

end Oplab.Spec
