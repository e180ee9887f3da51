import Verif.Model.RelativePose
import Verif.Spec.Covariance
import Mathlib.Data.Matrix.Block

/-!
# Relative uncertainty

Errors of two poses together have a covariance in four blocks: those of the poses, `C₀` and `C`, and the one `B` between
them.  The error of the second pose relative to the first is the difference of the errors.
-/

namespace Oplab.Spec
open Oplab Matrix

/-- `B` is a possible covariance between errors with covariances `C₀` and `C`. -/
def Joint (C₀ C B : PoseCov) : Prop := IsCov (fromBlocks C₀ B Bᵀ C)

/-- Covariance of the difference of the errors. -/
def relativeCov (C₀ C B : PoseCov) : PoseCov := C - B - Bᵀ + C₀

/-- Full property: the reported relative uncertainty is never below the true one. -/
def RelativeNotUnderstated : Prop :=
  ∀ (n₀ n : String) (C₀ C B : PoseCov) (rest out : List (String × Unit × PoseCov)), Joint C₀ C B →
    subtractFirst ((n₀, (), C₀) :: (n, (), C) :: rest) = .ok out →
    ∃ R, out[1]? = some (n, (), R) ∧ CovLe (relativeCov C₀ C B) R

/-- Full property: with two cameras, the second of them with a laser, relative uncertainties can be computed for some
poses. -/
def RelativeForTwo : Prop :=
  ∃ (a b first last : String) (file : String → Res (List (String × Unit × ℝ) × List (String × PoseCov))) (C : KMat)
    (images : List (ℝ × String)) (filter : RelativeInput Unit → List (ℝ × Unit × PoseCov)) (out : RelativeFiles Unit),
    relativeRun [a, b] first last file C images filter = .ok out

end Oplab.Spec
