import Verif.Model.SensorFrom
import Verif.Spec.Geometry

/-! What messages mean, independent of the objects that read them. -/

namespace Oplab.Spec
open Real

/-- The velocity a message of a DVL or INS stands for, in the axes of the sensor, and when, if it is one the software accepts: for the
cola2 DVL with bottom lock and slower than 2.5 m/s, for the Teledyne DVL bottom track before water track. -/
noncomputable def velMeasured : VelMsg → Option (ℝ × V3 ℝ)
  | .cola2 cov altitude v stamp => if 0 < cov.x ∧ 0 ≤ altitude ∧ √(v.x ^ 2 + v.y ^ 2) < 2.5 then some (stamp, v) else none
  | .teledyne biA bi _ wiA wi _ stamp =>
    if ¬ (mmValid bi ∨ mmValid wi) then none
    else if biA then some (stamp, smul 0.001 bi) else if wiA then some (stamp, smul 0.001 wi) else none
  | .hnav v _ stamp => some (stamp, v)
  | .other => none

/-- The altitude a message stands for. -/
noncomputable def altMeasured : AltMsg → Option (ℝ × ℝ)
  | .cola2 a stamp => if 0 ≤ a then some (stamp, a) else none
  | .range a stamp => if 0 ≤ a then some (stamp, a) else none
  | .teledyne isV a stamp => if isV then none else some (stamp, a)
  | .hnav a stamp => if a = 0 then none else some (stamp, a)
  | .other => none

/-- The depth a message stands for; pressure in Pa, sea water of 1030 kg/m³. -/
noncomputable def depthMeasured : DepthMsg → Option (ℝ × ℝ)
  | .pressure p _ stamp => some (stamp, p / (1030 * 9.80665))
  | .pose z _ stamp => some (stamp, z)
  | .hnav d _ stamp => some (stamp, d)
  | .other => none

/-- The time of an orientation message. -/
def orientTime : OrientMsg → Option ℝ
  | .imu _ _ stamp => some stamp
  | .hnav _ _ stamp => some stamp
  | .other => none

/-- Metres to degrees on a sphere with 111111 m per degree of latitude. -/
noncomputable def flatEarth (lat lon e n : ℝ) : ℝ × ℝ := (lat + n / 111.111e3, lon + e / (111.111e3 * cos (lat * π / 180)))

/-- Standard deviations in degrees say the same as those in metres. -/
def StdAgree (f : UsblRecord) : Prop :=
  f.latitudeStd * 111.111e3 = f.northingsStd ∧ f.longitudeStd * (111.111e3 * cos (f.latitude * π / 180)) = f.eastingsStd

/-- Universal time of what a log says, in a time zone `tz` hours ahead and with the clock corrected by `offset` seconds. -/
def logTime (tz offset : ℚ) (c : DateTime) : ℚ := c.seconds + c.us / 1000000 - tz * 3600 + offset

end Oplab.Spec
