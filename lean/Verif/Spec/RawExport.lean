import Verif.Model.RawExport
import Verif.Props.SensorJson
import Verif.Spec.SensorText

/-!
# What the file combined.RAW.auv is to hold
-/

namespace Oplab.Spec
open Oplab Oplab.Props

/-- A value, 0 if it is missing. -/
def valOf (x : Option ℚ) : ℚ := x.getD 0

/-- The words of a line: names of the file format and texts of numbers. -/
def visWords (num : ℝ → Text) (c : CamM ℚ) : List (List Text) :=
  if strIn "xxx" c.filename then [] else
  [["VIS:".toList, num (valOf c.epoch), '[' :: num (valOf c.epoch) ++ [']'], c.filename.toList, "exp:".toList, "0".toList]]

/-- The lines of a measurement that is not a velocity; altitudes and velocities over ground have none. -/
noncomputable def rawWords (num : ℝ → Text) : Meas ℚ → List (List Text)
  | .orient o => [["PHINS_COMPASS:".toList, num (valOf o.epoch), "r:".toList, num (valOf o.roll), "p:".toList, num (valOf o.pitch), "h:".toList,
      num (valOf o.yaw), "std_r:".toList, num (valOf o.rollStd), "std_p:".toList, num (valOf o.pitchStd), "std_h:".toList, num (valOf o.yawStd)]]
  | .depth d => [["PAROSCI:".toList, num (valOf d.depthTime), num (valOf d.depth)]]
  | .usbl u => [["SSBL_FIX:".toList, num (valOf u.epoch), "ship_x:".toList, strText num u.northShip, "ship_y:".toList, strText num u.eastShip,
      "target_x:".toList, num (valOf u.north), "target_y:".toList, num (valOf u.east), "target_z:".toList, num (valOf u.depth),
      "target_hr:".toList, num (acfrRange (u.dist.map fun x : ℚ => (x : ℝ)) (valOf u.depth)), "target_sr:".toList, strText num u.dist,
      "target_bearing:".toList, num (acfrBearing (valOf u.north) (valOf u.east))]]
  | .stereo l r _ => visWords num l ++ visWords num r
  | .cam c => visWords num c
  | _ => []

/-- The line of a velocity with an altitude and an orientation; its time is that of the DVL. -/
def rdiWords (num : ℝ → Text) (v : BodyVel ℚ) (a : AltM ℚ) (o : Orient ℚ) : List Text :=
  ["RDI:".toList, num (valOf v.epochDvl), "alt:".toList ++ num (valOf a.alt), "r1:0".toList, "r2:0".toList, "r3:0".toList, "r4:0".toList,
    "h:".toList ++ num (valOf o.yaw), "p:".toList ++ num (valOf o.pitch), "r:".toList ++ num (valOf o.roll), "vx:".toList ++ num (valOf v.vx),
    "vy:".toList ++ num (valOf v.vy), "vz:".toList ++ num (valOf v.vz)] ++
  ["nx:0", "ny:0", "nz:0", "COG:0", "SOG:0", "bt_status:0", "h_true:0", "p_gimbal:0", "sv:", "-9999.0"].map String.toList

/-- All values that the file needs are there (`export` does not ask for all of them), and names of images have no blanks. -/
def Whole : Meas ℚ → Prop
  | .body v => v.vz.isSome
  | .orient o => o.pitch.isSome ∧ o.pitchStd.isSome ∧ o.yawStd.isSome
  | .usbl u => u.depth.isSome
  | .cam c => IsWord c.filename.toList
  | .stereo l r _ => IsWord l.filename.toList ∧ IsWord r.filename.toList
  | _ => True

/-- The clocks of vehicle and DVL agree to a second. -/
def InStep (v : BodyVel ℚ) : Prop := ∃ t td, v.epoch = some t ∧ v.epochDvl = some td ∧ |t - td| < 1

/-- A line was written for velocity number `k`. `out` has the lines of each measurement. -/
def VelocityLine (ms : List (Meas ℚ)) (out : List (List Text)) (k : ℕ) : Prop := (∃ v, ms[k]? = some (.body v)) ∧ ∃ l ls, out[k]? = some (l :: ls)

/-- `x` is the latest measurement of a kind before number `i`, and no line was written for a velocity since. -/
def LatestMeas {β : Type} (ms : List (Meas ℚ)) (out : List (List Text)) (i : ℕ) (kind : β → Meas ℚ) (x : β) : Prop :=
  ∃ j, j < i ∧ ms[j]? = some (kind x) ∧ (∀ k b, j < k → k < i → ms[k]? ≠ some (kind b)) ∧ ∀ k, j < k → k < i → ¬ VelocityLine ms out k

/-- `out` has the lines of the measurements `ms`: those of all sensors but the DVL, and one for a velocity exactly if there was an
altitude and an orientation since the last one, with the latest of them. -/
structure RawLines (num : ℝ → Text) (ms : List (Meas ℚ)) (out : List (List Text)) : Prop where
  length : out.length = ms.length
  lines : ∀ ls ∈ out, ∀ l ∈ ls, ∃ w, l = w ++ ['\n'] ∧ '\n' ∉ w
  others : ∀ (i : ℕ) (m : Meas ℚ), ms[i]? = some m → (∀ v, m ≠ .body v) → ∃ ls : List Text, out[i]? = some ls ∧ ls.map wordsOf = rawWords num m
  velocity : ∀ (i : ℕ) (v : BodyVel ℚ) (a : AltM ℚ) (o : Orient ℚ), ms[i]? = some (.body v) → InStep v → LatestMeas ms out i .alt a →
    LatestMeas ms out i .orient o → ∃ line : Text, out[i]? = some [line] ∧ wordsOf line = rdiWords num v a o
  rest : ∀ (i : ℕ) (v : BodyVel ℚ), ms[i]? = some (.body v) → ¬ (InStep v ∧ (∃ a, LatestMeas ms out i .alt a) ∧ ∃ o, LatestMeas ms out i .orient o) →
    out[i]? = some []

end Oplab.Spec
