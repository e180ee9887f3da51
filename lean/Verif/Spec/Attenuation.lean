import Mathlib.Analysis.SpecialFunctions.Exp

/-! Vocabulary for attenuation curves. -/

namespace Oplab.Spec

/-- The curve `a * exp(b * x) + c` is positive and does not increase with the distance `x`. -/
def Attenuating (a b c : ℝ) : Prop :=
  (∀ x, 0 < a * Real.exp (b * x) + c) ∧ ∀ x y, x ≤ y → a * Real.exp (b * y) + c ≤ a * Real.exp (b * x) + c

/-- An optimiser that respects its bounds: `a` at least 1e-6, `b` at most 0, `c` between 0 and the upper bound. -/
def RespectsBounds (opt : ℝ × ℝ × ℝ → List (ℝ × ℝ) → ℝ → Option (ℝ × ℝ × ℝ)) : Prop :=
  ∀ start ps ub r, opt start ps ub = some r → 1e-6 ≤ r.1 ∧ r.2.1 ≤ 0 ∧ 0 ≤ r.2.2 ∧ r.2.2 ≤ ub

end Oplab.Spec
