import Verif.Spec.Covariance
import Mathlib.Data.Matrix.Basic

/-!
# Combining an estimate with a measurement

An estimate with error covariance `P` is corrected by weights `L` times the difference between the measured and the
estimated values of the components `o`; the errors of the measurement have variances `r` and are independent of each
other and of the estimate.
-/

namespace Oplab.Spec
open Matrix

variable {n k : Type} [Fintype n] [Fintype k] [DecidableEq k]

/-- Covariance of the differences between measured and estimated values. -/
def differenceCov (P : Matrix n n ℝ) (o : k → n) (r : k → ℝ) : Matrix k k ℝ := P.submatrix o o + diagonal r

/-- Error covariance of the corrected estimate, for any weights `L`: the error is `e - L (e ∘ o + noise)`. -/
def correctedCov (P : Matrix n n ℝ) (o : k → n) (r : k → ℝ) (L : Matrix n k ℝ) : Matrix n n ℝ :=
  P - L * P.submatrix o id - P.submatrix id o * Lᵀ + L * differenceCov P o r * Lᵀ

/-- The variance that is used for a measurement: negative ones count by their size, none is below 1e-9. -/
noncomputable def usedVariance (c : ℝ) : ℝ := max |c| (1 / 10 ^ 9)

end Oplab.Spec
