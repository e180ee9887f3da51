import Verif.Model.SensorFrom
import Verif.Model.Time

namespace Oplab

/-! # The state machine of the PHINS parser

/repo/src/auv_nav/parsers/parse_phins.py and the functions `from_phins` of /repo/src/auv_nav/sensors.py. Lines are those accepted by
`line_is_valid` (`phinsLineValid` in Parsers), with the numbers already converted; a text that `float` rejects stops the parser and is not
modelled. Times are still texts. -/

/-! ## Times -/

/-- parse_phins.py L31-35 `PhinsTimestamp.get`, for the date of the file name (L82-86), the time zone in hours and the offset in seconds. -/
def phinsGet (year month day : Nat) (tz offset : ℚ) (hour mins secs msec : Nat) : Res ℚ := do
  let e ← dateTimeToEpoch ⟨year, month, day, hour, mins, secs, 0⟩ tz
  .ok (e + msec / 1000 + offset)

/-- sensors.py L345-365 `parse_dvl_time`, L932-950 (depth) and parse_phins.py L41-55: hours and minutes are read outside of the `try`, so that
other characters there stop the parser; what follows gives no time if it cannot be read or has 60 seconds or more. -/
def phinsClock (year month day : Nat) (tz offset : ℚ) (s : List Char) : Res (Option ℚ) := do
  let hour ← pyInt (slice s 0 2)
  let mins ← pyInt (slice s 2 4)
  let inner : Res (Option ℚ) := do
    let secs ← pyInt (slice s 4 6)
    if secs < 60 then
      let msec ← pyInt (slice s 7 10)
      let t ← phinsGet year month day tz offset hour mins secs msec
      .ok (some t)
    else .ok none
  .ok (inner.toOption.getD none)

/-- parse_phins.py L37-58 `epoch_timestamp_from_phins`. -/
def phinsTimeLine (clock : List Char → Res (Option ℚ)) (s : List Char) : Res (Option ℚ) :=
  if s.length = 10 ∨ s.length = 13 then clock s else .ok none

/-! ## Lines and records -/

/-- sensors.py L49-60 `PhinsHeaders`. The fields of `dvl`, `vel`, `velStd`: numbers 2, 3, 4. `dvl` and `depth` also hold their time (fields 6
and 3), `altitude` sound velocity, its correction and the altitude. -/
inductive PhinsLine (α : Type)
  | time (s : List Char)
  | heading (h : α)
  | attitude (roll pitch : α)
  | attitudeStd (heading roll pitch : α)
  | dvl (v : V3 α) (s : List Char)
  | vel (v : V3 α)
  | velStd (v : V3 α)
  | depth (d : α) (s : List Char)
  | altitude (sound correction a : α)
  | other
  deriving DecidableEq

/-- What is written for one measurement: `time` is `epoch_timestamp`. Standard deviations that are functions of the value are left out. -/
inductive PhinsRecord (α : Type)
  | body (time tDvl : ℚ) (v : V3 α)
  | inertial (time : ℚ) (v : V3 α) (std : Option (V3 α))
  | orient (time : ℚ) (a std : V3 α)
  | depth (time tDepth : ℚ) (d : α)
  | altitude (time tDvl : ℚ) (sound correction a : α)
  | rdi (tDvl : ℚ) (v a : V3 α) (altitude sound : α)
  deriving DecidableEq

/-- The functions of the values: `body` sensors.py L209-215, `vel` L521-534, `orient` L630-638 (roll, pitch, heading), `std` L640-649, `neg`
L702, L704; `clock` reads a time. -/
structure PhinsCfg (α : Type) where
  clock : List Char → Res (Option ℚ)
  body : V3 α → V3 α
  vel : V3 α → V3 α
  orient : V3 α → V3 α
  std : V3 α → V3 α
  neg : α → α

/-- parse_phins.py L62-97 `PhinsParser.__init__` for the yaw of the DVL, the date of the file name, time zone and offset. -/
noncomputable def phinsCfg (year month day : Nat) (tz offset : ℚ) (yaw : ℝ) : PhinsCfg ℝ where
  clock := phinsClock year month day tz offset
  body := phinsBody yaw
  vel := phinsVelocity
  orient := orientOffset yaw
  std := orientStdOffset yaw
  neg x := -1 * x

/-- The fields of the five objects (parse_phins.py L87-97). `time` is the `epoch_timestamp` of all of them: `set_timestamp` (L99-104) sets them
together and no function clears it. -/
structure PhinsState (α : Type) where
  time : Option ℚ
  v : Option (V3 α)
  tDvl : Option ℚ
  ve : Option (V3 α)
  veStd : Option (V3 α)
  rp : Option (α × α)
  yaw : Option α
  oStd : Option (V3 α)
  d : Option α
  tDepth : Option ℚ
  alt : Option (α × α × α)
  tAlt : Option ℚ

/-- parse_phins.py L87-97: new objects. -/
def PhinsState.init {α : Type} : PhinsState α := ⟨none, none, none, none, none, none, none, none, none, none, none, none⟩

/-- What the parser is asked for. (parse_phins.py L188, L213, L218, L223) -/
inductive PhinsCat
  | velocity | orientation | depth | altitude
  deriving DecidableEq

section
variable {α : Type}

/-- sensors.py L161-168, L152-159, L115-126: export of the body velocity in the format oplab. -/
def exportBody (s : PhinsState α) : PhinsState α × Option (PhinsRecord α) :=
  match s.v, s.time, s.tDvl with
  | some v, some t, some td => ({ s with v := none, tDvl := none }, some (.body t td v))
  | _, _, _ => (s, none)

/-- sensors.py L514-519, L490-512: export of the inertial velocity; its standard deviation is not required. -/
def exportInertial (s : PhinsState α) : PhinsState α × Option (PhinsRecord α) :=
  match s.ve, s.time with
  | some v, some t => ({ s with ve := none, veStd := none }, some (.inertial t v s.veStd))
  | _, _ => (s, none)

/-- sensors.py L622-628, L617-620: export of the orientation; standard deviations stay. (Roll and pitch are set together.) -/
def exportOrient (s : PhinsState α) : PhinsState α × Option (PhinsRecord α) :=
  match s.rp, s.yaw, s.oStd, s.time with
  | some (r, p), some y, some std, some t => ({ s with rp := none, yaw := none }, some (.orient t ⟨r, p, y⟩ std))
  | _, _, _, _ => (s, none)

/-- sensors.py L862-867, L857-860: export of the depth. -/
def exportDepth (s : PhinsState α) : PhinsState α × Option (PhinsRecord α) :=
  match s.d, s.time, s.tDepth with
  | some d, some t, some td => ({ s with d := none, tDepth := none }, some (.depth t td d))
  | _, _, _ => (s, none)

/-- sensors.py L1004-1009, L995-1002: export of the altitude. -/
def exportAltitude (s : PhinsState α) : PhinsState α × Option (PhinsRecord α) :=
  match s.alt, s.time, s.tAlt with
  | some (sv, c, a), some t, some td => ({ s with alt := none, tAlt := none }, some (.altitude t td sv c a))
  | _, _, _ => (s, none)

/-- parse_phins.py L204-211, L155-181 `build_rdi_acfr`: one line from velocity, altitude and orientation; then all three are cleared. -/
def exportRdi (s : PhinsState α) : PhinsState α × Option (PhinsRecord α) :=
  match s.v, s.time, s.tDvl, s.alt, s.tAlt, s.rp, s.yaw, s.oStd with
  | some v, some _, some td, some (sv, _, a), some _, some (r, p), some y, some _ =>
    ({ s with v := none, tDvl := none, alt := none, tAlt := none, rp := none, yaw := none }, some (.rdi td v ⟨r, p, y⟩ a sv))
  | _, _, _, _, _, _, _, _ => (s, none)

/-- parse_phins.py L185-186, L99-104: a time line sets the time of all objects, also to none. -/
def phinsSetTime (c : PhinsCfg α) (s : PhinsState α) : PhinsLine α → Res (PhinsState α)
  | .time x => do
    let t ← phinsTimeLine c.clock x
    .ok { s with time := t }
  | _ => .ok s

/-- sensors.py L207-222 `BodyVelocity.from_phins`. -/
def phinsDvl (c : PhinsCfg α) (s : PhinsState α) (v : V3 α) (x : List Char) : Res (PhinsState α) := do
  let t ← c.clock x
  .ok { s with v := some (c.body v), tDvl := t }

/-- sensors.py L696-714 `Orientation.from_phins`; the offset is only applied if there is a heading (L631). -/
def phinsOrient (c : PhinsCfg α) (s : PhinsState α) : PhinsLine α → PhinsState α
  | .heading h => { s with yaw := some h }
  | .attitude r p =>
    match s.yaw with
    | none => { s with rp := some (c.neg r, c.neg p) }
    | some y =>
      let a := c.orient ⟨c.neg r, c.neg p, y⟩
      { s with rp := some (a.x, a.y), yaw := some a.z }
  | .attitudeStd h r p => { s with oStd := some (c.std ⟨r, p, h⟩) }
  | _ => s

/-- sensors.py L926-950 `Depth.from_phins`: the time is only set if it can be read. -/
def phinsDepth (c : PhinsCfg α) (s : PhinsState α) (d : α) (x : List Char) : Res (PhinsState α) := do
  let t ← c.clock x
  .ok { s with d := some d, tDepth := t.orElse fun _ => s.tDepth }

/-- sensors.py L1069-1075 `Altitude.from_phins`, with the time of the last DVL line (parse_phins.py L201-203, L225). -/
def phinsAltitude (s : PhinsState α) (sv k a : α) : PhinsState α := { s with alt := some (sv, k, a), tAlt := s.tDvl }

/-- parse_phins.py L188-198: the first part of the category velocity. -/
def phinsVelocityPart (c : PhinsCfg α) (acfr : Bool) (s : PhinsState α) : PhinsLine α → Res (PhinsState α × Option (PhinsRecord α))
  | .dvl v x => do
    let s ← phinsDvl c s v x
    .ok (if acfr then (s, none) else exportBody s)
  | .vel v => let s := { s with ve := some (c.vel v) }; .ok (if acfr then (s, none) else exportInertial s)
  | .velStd v => let s := { s with veStd := some (c.vel v) }; .ok (if acfr then (s, none) else exportInertial s)
  | _ => .ok (s, none)

/-- sensors.py L115-126 `export`: in the format acfr `_to_acfr` is called, which no class defines (the classes define `to_acfr`), so that
`NotImplementedError` stops the parser (here `attributeError`). -/
def exportOr (acfr : Bool) (r : PhinsState α × Option (PhinsRecord α)) : Res (PhinsState α × Option (PhinsRecord α)) :=
  if acfr && r.2.isSome then .error .attributeError else .ok r

/-- parse_phins.py L183-232 `process_line`. -/
def phinsStep (c : PhinsCfg α) (cat : PhinsCat) (acfr : Bool) (s : PhinsState α) (l : PhinsLine α) :
    Res (PhinsState α × Option (PhinsRecord α)) := do
  let s ← phinsSetTime c s l
  match cat with
  | .velocity => do
    let r ← phinsVelocityPart c acfr s l
    if acfr then
      let s := phinsOrient c r.1 l
      let s := match l with | .altitude sv k a => phinsAltitude s sv k a | _ => s
      .ok (exportRdi s)
    else .ok r
  | .orientation => exportOr acfr (exportOrient (phinsOrient c s l))
  | .depth =>
    match l with
    | .depth d x => do
      let s ← phinsDepth c s d x
      exportOr acfr (exportDepth s)
    | _ => .ok (s, none)
  | .altitude =>
    match l with
    | .altitude sv k a => exportOr acfr (exportAltitude (phinsAltitude s sv k a))
    | .dvl v x => do
      let s ← phinsDvl c s v x
      exportOr acfr (exportAltitude s)
    | _ => .ok (s, none)

/-- parse_phins.py L136-153 `parse` on the accepted lines. -/
def phinsRun (c : PhinsCfg α) (cat : PhinsCat) (acfr : Bool) : PhinsState α → List (PhinsLine α) → Res (List (PhinsRecord α))
  | _, [] => .ok []
  | s, l :: ls => do
    let r ← phinsStep c cat acfr s l
    let out ← phinsRun c cat acfr r.1 ls
    .ok (r.2.toList ++ out)

end

end Oplab
