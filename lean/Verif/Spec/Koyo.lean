import Mathlib.Algebra.Order.Field.Basic
import Verif.Model.Time
import Verif.Model.Basic

/-! Vocabulary for the properties of the dives of the ROV of 2020 and 2021. -/

namespace Oplab.Spec

/-- YYYYMMDD -/
def compactDate (c : DateTime) : List Char := padDigits 4 c.year ++ padDigits 2 c.month ++ padDigits 2 c.day

/-- The number hhmmss. -/
def compactTime (c : DateTime) : Nat := c.hour * 10000 + c.minute * 100 + c.second

variable {K : Type} [Field K] [LinearOrder K]

/-- The value at time `q` of the records (time, value): on the straight line through the two records around `q`. -/
def ValueAt (recs : List (K × K)) (q y : K) : Prop :=
  (∃ (k : Nat) (a b : K × K), recs[k]? = some a ∧ recs[k + 1]? = some b ∧ a.1 < q ∧ q ≤ b.1 ∧
      (y - a.2) * (b.1 - a.1) = (b.2 - a.2) * (q - a.1)) ∨
    (∃ b : K × K, recs[0]? = some b ∧ b.1 = q ∧ y = b.2)

end Oplab.Spec
