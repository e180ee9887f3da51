import Verif.Model.UsblRos
import Verif.Spec.Sensors

/-! What messages with positions mean, and what is read back from records. -/

namespace Oplab.Spec
open Real

/-- A position: time, degrees, metres from the origin of the mission, depth. -/
structure Fix where
  t : ℝ
  latitude : ℝ
  longitude : ℝ
  northings : ℝ
  eastings : ℝ
  depth : ℝ

/-- The position of a place given in degrees: its metres are distance and bearing from the origin. -/
noncomputable def fixFromDegrees (c : UsblSetup) (t lat lon depth : ℝ) : Fix :=
  let m := c.toMetres lat lon c.latRef c.lonRef
  ⟨t, lat, lon, m.1 * cos (rad m.2), m.1 * sin (rad m.2), depth⟩

/-- The position of a place given in metres (north, east, down). -/
def fixFromMetres (c : UsblSetup) (t : ℝ) (p : V3 ℝ) : Fix :=
  let ll := c.toLatLon c.latRef c.lonRef p.y p.x
  ⟨t, ll.1, ll.2, p.x, p.y, p.z⟩

/-- A message of a position receiver has a fix unless its status says so (-1). -/
def NavSatHasFix (status : ℤ) : Prop := 0 ≤ status

/-- The position a message stands for. Receivers give a fix with the statuses 0, 1 (with satellite correction) and 2 (with ground
correction); `good` are the statuses that count. -/
noncomputable def fixOf (good : ℤ → Prop) [DecidablePred good] (c : UsblSetup) : UsblMsg → Option Fix
  | .pose false p _ stamp => some (fixFromMetres c (stamp - c.tz) p)
  | .pose true p _ stamp => some (fixFromDegrees c (stamp - c.tz) p.x p.y (-p.z))
  | .navSat status lat lon _ stamp => if good status then some (fixFromDegrees c (stamp - c.tz) lat lon 0) else none
  | .evologics p stamp => some (fixFromMetres c (stamp - c.tz) p)
  | .other => none

/-- The uncertainties of a position from a message, in metres (north, east, down): those of the message, where a variance of zero stands
for an unknown one, which is then the linear function of the depth the mission gives. -/
noncomputable def fixStd (c : UsblSetup) : UsblMsg → V3 (Option ℝ)
  | .pose false p v _ =>
    let f := fun x => some (if √x = 0 then c.factor * p.z + c.offset else √x)
    ⟨f v.x, f v.y, f v.z⟩
  | .pose true p _ _ => ⟨some (c.factor * -p.z + c.offset), some (c.factor * -p.z + c.offset), some (c.factor * -p.z + c.offset)⟩
  | .navSat _ _ _ cov _ => ⟨some cov.y, some cov.x, some cov.z⟩
  | _ => ⟨none, none, none⟩

/-- A field of a record, if it is there and a number. -/
def numberAt (r : Res (Option ℝ)) : Option ℝ :=
  match r with
  | .ok (some x) => some x
  | _ => none

/-- The position a record states. -/
def fixRead (j : Json ℝ) : Option Fix :=
  match numberAt (j.at1 "epoch_timestamp"), numberAt (j.at3 "data_target" 0 "latitude"), numberAt (j.at3 "data_target" 1 "longitude"),
    numberAt (j.at3 "data_target" 2 "northings"), numberAt (j.at3 "data_target" 3 "eastings"), numberAt (j.at3 "data_target" 4 "depth") with
  | some t, some la, some lo, some n, some e, some d => some ⟨t, la, lo, n, e, d⟩
  | _, _, _, _, _, _ => none

/-- The uncertainties a record states, in metres: north, east, down. -/
def fixStdRead (j : Json ℝ) : V3 (Option ℝ) :=
  ⟨numberAt (j.at3 "data_target" 2 "northings_std"), numberAt (j.at3 "data_target" 3 "eastings_std"),
    numberAt (j.at3 "data_target" 4 "depth_std")⟩

/-- The distance to the ship a record states. -/
def fixDistRead (j : Json ℝ) : Option ℝ := numberAt (j.at3 "data_target" 5 "distance_to_ship")

end Oplab.Spec
