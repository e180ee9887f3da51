import Mathlib.Algebra.BigOperators.Group.Finset.Basic
import Mathlib.Algebra.Order.Field.Basic
import Mathlib.Algebra.BigOperators.Intervals
import Mathlib.Data.Real.Basic
import Mathlib.Data.Matrix.Mul
import Verif.Model.Basic
import Mathlib.Analysis.SpecialFunctions.Sqrt

/-! Laser lines in image columns, and bins of depth. -/

namespace Oplab.Spec

variable {K : Type} [Field K] [LinearOrder K]

/-- The brightness of `k` rows from row `v` on, weighted by a triangle around the middle row. -/
def green (k : ℕ) (col : List K) (v : ℕ) : K :=
  ∑ j ∈ Finset.range k, (1 - |2 * (j : K) - ((k : K) - 1)| / (k : K)) * col.getD (v + j) 0

/-- The centre of brightness of `k` rows from row `v` on. -/
def centroid (k : ℕ) (col : List K) (v : ℕ) : K :=
  (v : K) + (∑ j ∈ Finset.range k, (j : K) * col.getD (v + j) 0) / ∑ j ∈ Finset.range k, col.getD (v + j) 0

/-- `z` lies in bin `b` of `n` equal bins between `lo` and `hi`. -/
def InBin (lo hi : K) (n b : ℕ) (z : K) : Prop :=
  lo + (b : K) * ((hi - lo) / (n : K)) ≤ z ∧ z < lo + ((b : K) + 1) * ((hi - lo) / (n : K))

/-- A camera with projection matrix `P` sees the homogeneous point `w` at the pixel in row `x.1` and column `x.2`. -/
def Sees (P : Matrix (Fin 3) (Fin 4) ℝ) (w : Fin 4 → ℝ) (x : ℝ × ℝ) : Prop :=
  P.mulVec w 0 = x.2 * P.mulVec w 2 ∧ P.mulVec w 1 = x.1 * P.mulVec w 2

/-- A unit vector that a matrix shortens most: the last right singular vector. -/
def LastSingular {m n : ℕ} (M : Matrix (Fin m) (Fin n) ℝ) (v : Fin n → ℝ) : Prop :=
  ∑ i, v i ^ 2 = 1 ∧ ∀ w : Fin n → ℝ, ∑ i, w i ^ 2 = 1 → ∑ i, M.mulVec v i ^ 2 ≤ ∑ i, M.mulVec w i ^ 2

/-- The three points are on one line. -/
def Aligned (p q r : V3 ℝ) : Prop :=
  ∃ (a b : ℝ), (a ≠ 0 ∨ b ≠ 0) ∧ a * (q.x - p.x) = b * (r.x - p.x) ∧ a * (q.y - p.y) = b * (r.y - p.y) ∧
    a * (q.z - p.z) = b * (r.z - p.z)

/-- Distance of the points seen along the first axis. -/
noncomputable def distYZ (p q : V3 ℝ) : ℝ := Real.sqrt ((p.y - q.y) ^ 2 + (p.z - q.z) ^ 2)

end Oplab.Spec
