import Verif.Model.EkfStart
import Verif.Spec.EkfPose

/-! The filter and dead reckoning start together. -/

namespace Oplab.Spec
open Oplab

/-- The filter starts with the velocity that the DVL gives at that time. -/
def StartVelocity : Prop :=
  ∀ (dvl depth : V3 ℝ) (d : DrStart) (c : EkfStd) (std : V3 ℝ) (i : Ix), i = Ix.VX ∨ i = Ix.VY ∨ i = Ix.VZ →
    (fromDvl c ⟨d.t, d.raw, std⟩).value i = some (ekfStart dvl depth d i)

end Oplab.Spec
