import Verif.Model.Acfr
import Verif.Model.NavFile
import Verif.Model.SensorText

/-!
Model of the writing of `combined.RAW.auv` from the navigation file of a dive: /repo/src/auv_nav/convert.py L293-376 with
/repo/src/auv_nav/parsers/acfr_combined_raw.py L66-103 and the `to_acfr` methods of /repo/src/auv_nav/sensors.py.
-/

namespace Oplab

/-- An object handed to `exporter.add`. (convert.py L321-376) -/
inductive Sensed where
  | body (v : BodyVel ℚ)
  | inertial (v : InertialVel ℚ)
  | orient (o : Orient ℚ)
  | depth (d : DepthM ℚ)
  | alt (a : AltM ℚ)
  | usbl (u : UsblM ℚ)
  | cam (c : CamM ℚ)

/-- convert.py L326-347: the objects of a velocity record; `t` is its time, `frame` its frame. -/
def velocitySensed (j : Json ℚ) (t : ℚ) (frame : String) : List (Res Sensed) :=
  (if strIn "body" frame && j.has "epoch_timestamp_dvl" then
      match (do let td ← j.at1 "epoch_timestamp_dvl"; reqNum td) with
      | .error e => [.error e]
      | .ok td => if |t - td| < 1 then [(BodyVel.fromJson {} j .sensor).map .body] else []
    else [])
  ++ (if strIn "inertial" frame then [(InertialVel.fromJson {} j).map .inertial] else [])

/-- convert.py L323-376: the objects of a record, in the order in which they are handed to the writer; an error ends the program.
`llStd` is not used by the model "sensor" of uncertainties (L311-316). -/
def recordSensed (llStd : Option ℚ → Option ℚ → Option ℚ → Option ℚ → ℚ → ℚ → Res (Option ℚ × Option ℚ)) (start finish : ℚ) (j : Json ℚ) :
    List (Res Sensed) :=
  match (do let t ← j.at1 "epoch_timestamp"; reqNum t) with
  | .error e => [.error e]
  | .ok t =>
    if t ≥ start ∧ t ≤ finish then
      match (do let c ← j.key "category"; c.asStr) with
      | .error e => [.error e]
      | .ok cat =>
        (if strIn "velocity" cat then
            match (do let f ← j.key "frame"; f.asStr) with
            | .error e => [.error e]
            | .ok frame => velocitySensed j t frame
          else [])
        ++ (if strIn "orientation" cat then [(Orient.fromJson {} j .sensor).map .orient] else [])
        ++ (if strIn "depth" cat then [(DepthM.fromJson {} j .sensor).map .depth] else [])
        ++ (if strIn "altitude" cat then [(AltM.fromJson {} j).map .alt] else [])
        ++ (if strIn "usbl" cat then [(UsblM.fromJson llStd {} j .sensor).map .usbl] else [])
        ++ (if strIn "image" cat then [(CamM.fromJson {} j "camera1").map .cam, (CamM.fromJson {} j "camera2").map .cam] else [])
    else []

/-- acfr_combined_raw.py L72-101: the kind of an object for the writer. -/
def Sensed.meas : Sensed → RawMeas Sensed
  | .body v => .velocity (.body v)
  | .inertial _ => .ignored
  | .orient o => .orientation (.orient o)
  | .depth d => .depth (.depth d)
  | .alt a => .altitude (.alt a)
  | .usbl u => .usbl (.usbl u)
  | .cam c => .camera (strIn "xxx" c.filename) (.cam c)

/-- `str(float(x))`; `float(None)` raises a `TypeError`. `num` is the text of a number. (sensors.py L460-475) -/
def floatText (num : ℝ → Text) : Option ℚ → Res Text
  | some x => .ok (num x)
  | none => .error .typeError

/-- `str(x)` of a number or `None`. (sensors.py L983, L1926-1928 and `float_or_none` L42-46) -/
def strText (num : ℝ → Text) : Option ℚ → Text
  | some x => num x
  | none => "None".toList

/-- sensors.py L456-482 `BodyVelocity.to_acfr`: texts of the numbers. -/
def rdiLine (num : ℝ → Text) (v : BodyVel ℚ) (a : AltM ℚ) (o : Orient ℚ) : Res Text := do
  let t ← floatText num v.epoch
  let alt ← floatText num a.alt
  let h ← floatText num o.yaw
  let p ← floatText num o.pitch
  let r ← floatText num o.roll
  let x ← floatText num v.vx
  let y ← floatText num v.vy
  let z ← floatText num v.vz
  .ok (velocityAcfr ⟨t, x, y, z, [], [], []⟩ ⟨[], r, p, h, [], [], []⟩ alt)

/-- sensors.py L827-845 `Orientation.to_acfr`: texts of the numbers. -/
def compassLine (num : ℝ → Text) (o : Orient ℚ) : Res Text := do
  let t ← floatText num o.epoch
  let r ← floatText num o.roll
  let p ← floatText num o.pitch
  let h ← floatText num o.yaw
  let rs ← floatText num o.rollStd
  let ps ← floatText num o.pitchStd
  let hs ← floatText num o.yawStd
  .ok (orientationAcfr ⟨t, r, p, h, rs, ps, hs⟩)

/-- sensors.py L1507-1527: the line of a fix from the texts of its numbers. -/
def usblAcfr (t shipX shipY x y z hr sr bearing : Text) : Text :=
  "SSBL_FIX: ".toList ++ t ++ " ship_x: ".toList ++ shipX ++ " ship_y: ".toList ++ shipY ++ " target_x: ".toList ++ x ++ " target_y: ".toList ++ y ++
    " target_z: ".toList ++ z ++ " target_hr: ".toList ++ hr ++ " target_sr: ".toList ++ sr ++ " target_bearing: ".toList ++ bearing ++ ['\n']

/-- sensors.py L1496-1528 `Usbl.to_acfr`; without depth, northings or eastings it raises a `TypeError` (L1499, L1506 or L1519). -/
noncomputable def usblRawLine (num : ℝ → Text) (u : UsblM ℚ) : Res Text :=
  match u.depth, u.north, u.east with
  | some d, some n, some e => do
    let t ← floatText num u.epoch
    .ok (usblAcfr t (strText num u.northShip) (strText num u.eastShip) (num n) (num e) (num d)
      (num (acfrRange (u.dist.map fun x : ℚ => (x : ℝ)) d)) (strText num u.dist) (num (acfrBearing n e)))
  | _, _, _ => .error .typeError

/-- sensors.py L1923-1933 `Camera.to_acfr`. -/
def visRawLine (num : ℝ → Text) (c : CamM ℚ) : Text :=
  "VIS: ".toList ++ strText num c.epoch ++ " [".toList ++ strText num c.epoch ++ "] ".toList ++ c.filename.toList ++ " exp: 0\n".toList

/-- The text of a record of the writer. (acfr_combined_raw.py L74, L82, L84, L86, L95) -/
noncomputable def rawText (num : ℝ → Text) : RawOut Sensed → Res Text
  | .rdi (.body v) (.alt a) (.orient o) => rdiLine num v a o
  | .compass (.orient o) => compassLine num o
  | .parosci (.depth d) => .ok (depthAcfr (strText num d.depthTime) (strText num d.depth))
  | .ssbl (.usbl u) => usblRawLine num u
  | .vis (.cam c) => .ok (visRawLine num c)
  | _ => .error .typeError

/-- acfr_combined_raw.py L71-103: the objects are handed to the writer one by one: text written, and the error that ends the program. -/
noncomputable def writeRaw (num : ℝ → Text) (st : RawState Sensed) : List (Res Sensed) → Text × Option Err
  | [] => ([], none)
  | .error e :: _ => ([], some e)
  | .ok s :: l =>
    match rawAdd st s.meas with
    | (st', none) => writeRaw num st' l
    | (st', some r) =>
      match rawText num r with
      | .error e => ([], some e)
      | .ok t => let w := writeRaw num st' l; (t ++ w.1, w.2)

/-- convert.py L293-376: the window is from the second to the last record, then all records are exported. -/
noncomputable def exportRaw (num : ℝ → Text) (llStd : Option ℚ → Option ℚ → Option ℚ → Option ℚ → ℚ → ℚ → Res (Option ℚ × Option ℚ))
    (file : List (Json ℚ)) : Text × Option Err :=
  match file[1]?, file.getLast? with
  | some j, some k =>
    match (do let t ← j.at1 "epoch_timestamp"; reqNum t), (do let t ← k.at1 "epoch_timestamp"; reqNum t) with
    | .ok a, .ok b => writeRaw num {} (file.flatMap (recordSensed llStd a b))
    | .error e, _ => ([], some e)
    | _, .error e => ([], some e)
  | _, _ => ([], some .indexError)

end Oplab
