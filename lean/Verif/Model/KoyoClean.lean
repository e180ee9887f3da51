import Verif.Model.Koyo20
import Verif.Model.Rotation

/-!
Model of the cleaning of the ship log in /repo/src/auv_nav/parsers/koyo20rov.py: missing values, records that would need too
high a speed, and the check for files that exist.
-/

namespace Oplab

section
variable {K : Type} [Field K] [LinearOrder K]

/-- koyo20rov.py L445-461: one turn of the loop over the records, for the altitudes or the depths `vs` at the times `ts`.
Index -1 is the last record. -/
def fillStep (ts : List K) (vs : List K) (i : Nat) : List K :=
  if vs[i]? = some 0 then
    match ts[i]?, pyGet ts ((i : Int) - 1), ts[i + 1]?, pyGet vs ((i : Int) - 1), vs[i + 1]? with
    | some t, .ok tl, some tu, .ok vl, some vu => vs.set i (interpolate t tl tu vl vu)
    | _, _, _, _, _ => vs
  else vs

/-- koyo20rov.py L444-461 `for i in range(len(self.vector_pos) - 1)`; altitudes and depths are treated alike. -/
def fillMissing (ts vs : List K) : List K := (List.range (vs.length - 1)).foldl (fillStep ts) vs

end

/-- A record of a position: time, latitude, longitude. (koyo20rov.py L190-214) -/
structure ShipPos where
  t : ℝ
  lat : ℝ
  lon : ℝ

open Classical in
/-- koyo20rov.py L675-682 `av_speed > MAX_SPEED`.  The division is numpy's: by zero it gives infinity or, for no distance, a
value that is not greater. -/
noncomputable def tooFast (a b : ShipPos) : Bool :=
  let d := 111139 * Real.sqrt ((b.lat - a.lat) ^ 2 + (b.lon - a.lon) ^ 2)
  if b.t - a.t = 0 then decide (0 < d) else decide (20 < d / (b.t - a.t))

/-- koyo20rov.py L667-687: the loop, after the record `cur`. -/
noncomputable def speedLoop (cur : ShipPos) : List ShipPos → List ShipPos
  | [] => []
  | p :: rest => if tooFast cur p then speedLoop cur rest else p :: speedLoop p rest

/-- koyo20rov.py L641-693 `filter_bad_measurements`; without a record it fails. -/
noncomputable def filterBad : List ShipPos → Res (List ShipPos)
  | [] => .error .indexError
  | p :: rest => .ok (p :: speedLoop p rest)

/-- koyo20rov.py L580-639 `check_for_outputs`: `files` says of each output, in order, whether it exists; the result is the
list of files that are to be overwritten. -/
def koyoOutputs (forcing : Bool) : List (String × Bool) → Res (List String)
  | [] => .ok []
  | (name, there) :: rest =>
    if there then
      if forcing then do
        let l ← koyoOutputs forcing rest
        .ok (name :: l)
      else .error .assertion
    else koyoOutputs forcing rest

end Oplab
