import Verif.Model.Clocks

/-! # Specification for C196 -/

namespace Oplab.Spec
open Oplab

/-- The instant at which a device in the zone `tz`, whose clock has to be advanced by `off`, writes the time `t`. -/
def trueInstant (c : ClockSettings) (t : ℚ) : ℚ := t - 3600 * c.tz + c.off

/-- Every parser follows the time zone and the offset of the mission. -/
def ClocksRight : Prop := ∀ (s : LogSource) (c : ClockSettings) (t : ℚ), recordedTime s c t = trueInstant c t

end Oplab.Spec
