import Verif.Model.ImageParsers
import Verif.Model.Sonardyne
import Verif.Model.Rotation

/-! # The parser of AE2000 logs

File `/repo/src/auv_nav/parsers/parse_ae2000.py`. Text is a list of characters, numbers are real. The tables that `pandas` reads are
parameters; columns that hold no number (NaN) are modelled for the bottom lock and the depth only. The names in mission.yaml are
resolved by the caller of `aeParse`. -/

namespace Oplab

/-- A row of a log. Only the columns of the file's own sensor exist in a file; the others are not read.
(parse_ae2000.py L91-325) -/
structure AeRow where
  /-- date and time; `none` is NaN -/
  stamp : Option (List Char)
  /-- `dvl_validBottom` without its decimals -/
  valid : Option Int
  /-- surge, sway and heave in mm/s -/
  vel : V3 ℝ
  /-- `dvl_rangeBottom` -/
  range : ℝ
  /-- roll, pitch and yaw -/
  att : V3 ℝ
  depth : Option ℝ

/-- The sensors. -/
inductive AeCategory where
  | velocity | orientation | depth | altitude
deriving DecidableEq

/-- The settings of a sensor in mission.yaml. -/
structure AeSettings where
  folder : List Char
  file : List Char
  timeoffset : ℝ
  stdFactor : ℝ
  stdOffset : ℝ

/-- The mounting angles in vehicle.yaml: those of the DVL (roll, pitch, yaw) and of the INS. -/
structure AeVehicle where
  dvl : V3 ℝ
  ins : V3 ℝ

/-- parse_ae2000.py L104-121: the time of a row without the offset; `none` if the time has fewer than three parts (the row is skipped). -/
def aeStamp (text : List Char) : Res (Option ℚ) := do
  let datetime := splitAtSep (· = ' ') text
  let d ← pyGet datetime 0
  let date := splitAtSep (· = '/') d
  let yyyy ← pyGet date 0 >>= pyInt
  let mm ← pyGet date 1 >>= pyInt
  let dd ← pyGet date 2 >>= pyInt
  let t ← pyGet datetime 1
  let timestamp := splitAtSep (· = ':') t
  if timestamp.length < 3 then .ok none
  else do
    let hour ← pyGet timestamp 0 >>= pyInt
    let mins ← pyGet timestamp 1 >>= pyInt
    let s ← pyGet timestamp 2
    let parts := splitAtSep (· = '.') s
    let secs ← pyGet parts 0 >>= pyInt
    let msec ← pyGet parts 1 >>= fractionRead
    let e ← dateTimeToEpoch ⟨yyyy, mm, dd, hour, mins, secs, 0⟩ 0
    .ok (some (e + msec))

/-- parse_ae2000.py L93-123: the rows with their times. The loop of the code treats each row before it reads the next time; an error is
the same in both orders, except for its kind if there are two. -/
noncomputable def aeTimed (timeoffset : ℝ) : List AeRow → Res (List (ℝ × AeRow))
  | [] => .ok []
  | row :: rest =>
    match row.stamp with
    | none => aeTimed timeoffset rest
    | some text => do
      let t ← aeStamp text
      let r ← aeTimed timeoffset rest
      match t with
      | none => .ok r
      | some t => .ok (((t : ℝ) + timeoffset, row) :: r)

/-- A record in the oplab format; the constant words are left out. -/
inductive AeRecord where
  | velocity (t : ℝ) (v std : V3 ℝ)
  | orientation (t : ℝ) (angles std : V3 ℝ)
  | depth (t d std : ℝ)
  | altitude (t a std : ℝ)

/-- parse_ae2000.py L157-168 and others: factor times size plus offset. -/
def aeStd (s : AeSettings) (x : ℝ) : ℝ := |x| * s.stdFactor + s.stdOffset

/-- parse_ae2000.py L126-195: the velocities. -/
noncomputable def aeVelocity (s : AeSettings) (veh : AeVehicle) (r : ℝ × AeRow) : Option AeRecord :=
  match r.2.valid with
  | none => none
  | some k =>
    if k ≠ 1 then none
    else
      let v := bodyToInertial veh.dvl.x veh.dvl.y veh.dvl.z ⟨r.2.vel.x / 1000, r.2.vel.y / 1000, r.2.vel.z / 1000⟩
      some (.velocity r.1 v ⟨aeStd s v.x, aeStd s v.y, aeStd s v.z⟩)

/-- parse_ae2000.py L197-230: an orientation; the standard deviation of the heading is that of the angle before the offset. -/
noncomputable def aeAngles (s : AeSettings) (veh : AeVehicle) (r : ℝ × AeRow) : Res (V3 ℝ × V3 ℝ) :=
  if veh.ins.x ≠ 0 ∨ veh.ins.y ≠ 0 then .error .quit
  else .ok (⟨r.2.att.x, r.2.att.y, offsetHeading r.2.att.z veh.ins.z⟩, ⟨aeStd s r.2.att.x, aeStd s r.2.att.y, aeStd s r.2.att.z⟩)

/-- parse_ae2000.py L197-242: the orientations. -/
noncomputable def aeOrientations (s : AeSettings) (veh : AeVehicle) : List (ℝ × AeRow) → Res (List AeRecord)
  | [] => .ok []
  | r :: rest => do
    let a ← aeAngles s veh r
    let rs ← aeOrientations s veh rest
    .ok (.orientation r.1 a.1 a.2 :: rs)

/-- parse_ae2000.py L307-340: the altitudes. -/
noncomputable def aeAltitude (s : AeSettings) (r : ℝ × AeRow) : Option AeRecord :=
  match r.2.valid with
  | none => none
  | some k => if k ≠ 1 then none else some (.altitude r.1 r.2.range (r.2.range * s.stdFactor + s.stdOffset))

/-- parse_ae2000.py L125-340: the records of the rows in the oplab format. -/
noncomputable def aeOplab (cat : AeCategory) (s : AeSettings) (veh : AeVehicle) (rows : List (ℝ × AeRow)) : Res (List AeRecord) :=
  match cat with
  | .velocity => .ok (rows.filterMap (aeVelocity s veh))
  | .orientation => aeOrientations s veh rows
  | .depth => .ok ((ae2000Depths 0 (rows.map fun r => (r.1, r.2.depth))).map fun p => .depth p.1 p.2 (aeStd s p.2))
  | .altitude => .ok (rows.filterMap (aeAltitude s))

/-- A line in the acfr format. -/
inductive AeLine where
  | rdi (t alt : ℝ) (angles vel : V3 ℝ)
  | compass (t : ℝ) (angles std : V3 ℝ)
  | parosci (t : ℝ) (depth : Option ℝ)

/-- parse_ae2000.py L342-451: the lines of the rows in the acfr format. -/
noncomputable def aeAcfr (cat : AeCategory) (s : AeSettings) (veh : AeVehicle) : List (ℝ × AeRow) → Res (List AeLine)
  | [] => .ok []
  | r :: rest =>
    match cat with
    | .velocity =>
      match r.2.valid with
      | none => .error .valueError
      | some k =>
        if k ≠ 1 then aeAcfr cat s veh rest
        else do
          let ls ← aeAcfr cat s veh rest
          .ok (.rdi r.1 r.2.range r.2.att ⟨r.2.vel.x / 1000, r.2.vel.y / 1000, r.2.vel.z / 1000⟩ :: ls)
    | .orientation => do
      let a ← aeAngles s veh r
      let ls ← aeAcfr cat s veh rest
      .ok (.compass r.1 a.1 a.2 :: ls)
    | .depth => do
      let ls ← aeAcfr cat s veh rest
      .ok (.parosci r.1 r.2.depth :: ls)
    | .altitude => aeAcfr cat s veh rest

/-- parse_ae2000.py L35-73: the date in the name of the file is read, though not used; a name of another form is only reported. -/
def aeName (cat : AeCategory) (file : List Char) : Res Unit := do
  let k := if cat = .orientation then 8 else 3
  let _ ← pyInt (slice file k (k + 2))
  let _ ← pyInt (slice file (k + 2) (k + 4))
  let _ ← pyInt (slice file (k + 4) (k + 6))
  .ok ()

/-- parse_ae2000.py L25-454 in the oplab format: folder and time offset are those of the velocity, whatever the sensor (L31-33). `csv` is the
file system; a file that does not exist is a `FileNotFoundError` (here `ValueError`). -/
noncomputable def aeParse (csv : List Char → List Char → Option (List AeRow)) (m : AeCategory → AeSettings) (veh : AeVehicle) (cat : AeCategory) :
    Res (List AeRecord) := do
  aeName cat (m cat).file
  match csv (m .velocity).folder (m cat).file with
  | none => .error .valueError
  | some rows => do
    let timed ← aeTimed (m .velocity).timeoffset rows
    aeOplab cat (m cat) veh timed

/-- parse_ae2000.py L25-454 in the acfr format. -/
noncomputable def aeParseAcfr (csv : List Char → List Char → Option (List AeRow)) (m : AeCategory → AeSettings) (veh : AeVehicle)
    (cat : AeCategory) : Res (List AeLine) := do
  aeName cat (m cat).file
  match csv (m .velocity).folder (m cat).file with
  | none => .error .valueError
  | some rows => do
    let timed ← aeTimed (m .velocity).timeoffset rows
    aeAcfr cat (m cat) veh timed

end Oplab
