import Verif.Model.Numerical

/-! Vocabulary for the statistics of image stacks. -/

namespace Oplab.Spec

section
variable {K : Type} [Field K]

/-- Arithmetic mean of a list. -/
def mean (l : List K) : K := l.sum / (l.length : K)

/-- Population variance of a list. -/
def variance (l : List K) : K := (l.map fun x => (x - mean l) ^ 2).sum / (l.length : K)

variable [LinearOrder K]

/-- `mid` is what remains of `l`, in order, after dropping the `a` smallest values and keeping up to the `b`-th. -/
def CentralPart (l mid : List K) (a b : ℤ) : Prop :=
  ∃ low high : List K, (low ++ mid ++ high).Perm l ∧ (low ++ mid ++ high).Pairwise (· ≤ ·) ∧
    (low.length : ℤ) = a ∧ (low.length : ℤ) + mid.length = b

end

end Oplab.Spec
