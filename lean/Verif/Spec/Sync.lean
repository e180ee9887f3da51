import Verif.Spec.Lines

/-! Curves through samples. -/

namespace Oplab.Spec

variable {K : Type} [Field K] [LinearOrder K]

/-- `(q, y)` lies on the line between two successive samples of a list of (time, value) pairs, whose times enclose `q`. -/
def OnCurve (l : List (K × K)) (q y : K) : Prop :=
  ∃ (m : ℕ) (a b : K × K), l[m]? = some a ∧ l[m + 1]? = some b ∧ a.1 ≤ q ∧ q ≤ b.1 ∧ OnLine a.1 a.2 b.1 b.2 q y

/-- At least two samples, in strictly increasing order of time. -/
def IsRecord {α : Type} (time : α → K) (l : List α) : Prop :=
  2 ≤ l.length ∧ l.Pairwise fun a b => time a < time b

/-- `q` is not before the first and not after the last sample. -/
def Covers {α : Type} (time : α → K) (l : List α) (q : K) : Prop :=
  (∀ a ∈ l.head?, time a ≤ q) ∧ ∀ a ∈ l.getLast?, q ≤ time a

end Oplab.Spec
