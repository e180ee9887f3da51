import Verif.Model.Time
import Verif.Model.Interpolate

/-! # Conversion of HyBIS navigation

/repo/src/auv_nav/parsers/hybis.py. Numbers are exact; Python's `float` of a text is a parameter. -/

namespace Oplab

/-- hybis.py L49-61 `convert_latlon`, e.g. 5950.89694N or 00703.39736W. -/
def hybisLatLon (toFloat : List Char → Res ℚ) (s : List Char) : Res ℚ := do
  let final := if s.length = 11 then 1 else 0
  let deg ← toFloat (slice s 0 (3 - final))
  let minutes ← toFloat (slice s (3 - final) (11 - final))
  let zone ← pyGet s ((11 - final : Nat) : Int)
  let decdeg := deg + minutes / 60
  .ok (if zone = 'W' ∨ zone = 'S' then -decdeg else decdeg)

/-- hybis.py L63-75 `convert`: dates dd/mm/yyyy and times hh:mm:ss. Negative hours (L70-73) are not modelled. -/
def hybisTime (date time : List Char) : Res ℚ := do
  let yyyy ← pyInt (slice date 6 10)
  let mm ← pyInt (slice date 3 5)
  let dd ← pyInt (slice date 0 2)
  let hour ← pyInt (slice time 0 2)
  let mins ← pyInt (slice time 3 5)
  let secs ← pyInt (slice time 6 8)
  dateTimeToEpoch ⟨yyyy, mm, dd, hour, mins, secs, 0⟩ 0

variable {K : Type} [Field K] [LinearOrder K]

/-- hybis.py L117-133: one step of the loop that replaces zero values of one quantity (altitude or depth) with times `ts`. Index -1 is the
last record. -/
def hybisRepairStep (ts v : List K) (i : Nat) : List K :=
  let j := if i = 0 then v.length - 1 else i - 1
  if v.getD i 0 = 0 then
    v.set i (interpolate (ts.getD i 0) (ts.getD j 0) (ts.getD (i + 1) 0) (v.getD j 0) (v.getD (i + 1) 0))
  else v

/-- hybis.py L117-133 and koyo20rov.py L444-461: the loop over all records but the last. -/
def hybisRepair (ts v : List K) : List K := (List.range (v.length - 1)).foldl (hybisRepairStep ts) v

/-- hybis.py L167-172: the search for the interval of an image taken at time `m`. -/
def hybisIndex (ts : List K) (m : K) (i : Nat) : Nat :=
  if i + 2 < ts.length ∧ ts.getD i 0 < m then hybisIndex ts m (i + 1) else i
termination_by ts.length - i

/-- hybis.py L174-225: one of the quantities at the time of an image. -/
def hybisAt (ts v : List K) (m : K) : Res K :=
  match ts[hybisIndex ts m 0]?, ts[hybisIndex ts m 0 + 1]?, v[hybisIndex ts m 0]?, v[hybisIndex ts m 0 + 1]? with
  | some t1, some t2, some v1, some v2 => .ok (interpolate m t1 t2 v1 v2)
  | _, _, _, _ => .error .indexError

/-- hybis.py L135-143: the reference; positions are (latitude, longitude). -/
def hybisReference (lat lon : K) (positions : List (K × K)) : Res (K × K) :=
  if lon = 0 ∨ lat = 0 then
    match positions.find? fun p => p.1 ≠ 0 with
    | some p => .ok p
    | none => .error .indexError
  else .ok (lat, lon)

end Oplab
