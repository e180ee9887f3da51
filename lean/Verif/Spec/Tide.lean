import Verif.Spec.Lines
import Verif.Model.Parse

/-! What tide correction should do. -/

namespace Oplab.Spec
open Oplab

variable {K : Type} [Field K] [LinearOrder K]

/-- `h` is the tide height at time `t`: on the straight line between two consecutive tide samples around `t`. -/
def TideAt (tide : List (TSample K)) (t h : K) : Prop :=
  ∃ i a b, tide[i]? = some a ∧ tide[i + 1]? = some b ∧ a.t ≤ t ∧ t ≤ b.t ∧ OnLine a.t a.v b.t b.v t h

/-- `t` is within the time span of the tide record. -/
def InTideSpan (tide : List (TSample K)) (t : K) : Prop :=
  ∃ a b, tide.head? = some a ∧ tide.getLast? = some b ∧ a.t ≤ t ∧ t ≤ b.t

/-- A measurement is corrected by the tide height. -/
def CorrectedBy (tide : List (TSample K)) (r r' : TSample K) : Prop :=
  r'.t = r.t ∧ ∃ h, TideAt tide r.t h ∧ r'.v = r.v - h

end Oplab.Spec
