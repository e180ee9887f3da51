import Mathlib.Analysis.SpecialFunctions.Trigonometric.Basic
import Verif.Model.Time
import Verif.Model.Sonardyne

/-!
# RDI logs

Models `parse_rdi` (/repo/src/auv_nav/parsers/parse_rdi.py) from the texts of the lines to the records, with what it needs of the classes of
/repo/src/auv_nav/sensors.py. `num` is Python's `float` of a text. Numbers are real numbers.
-/

namespace Oplab
open Real

/-- What is asked for. (/repo/src/auv_nav/parsers/parse_rdi.py L46-60) -/
inductive RdiCategory where
  | velocity
  | orientation
  | altitude
  deriving DecidableEq

/-- What the parser is given: angle of the dvl in vehicle.yaml, uncertainty models and time offset of mission.yaml, and the two digits before the
year, from the name of the dive folder. (parse_rdi.py L25-36, L46-60) -/
structure RdiSetup where
  mount : ℝ
  attStd : Option ℝ
  altFactor : ℝ
  offset : ℝ
  century : List Char

/-- Variables of the three objects; the time is that of all of them. (parse_rdi.py L38-44, sensors.py L129-160, L602-628, L987-1010) -/
structure RdiVars where
  stamp : Option ℝ := none
  stampDvl : Option ℝ := none
  vel : Option (V3 ℝ × ℝ) := none
  stampAlt : Option ℝ := none
  alt : Option (ℝ × ℝ) := none
  sound : Option ℝ := none
  att : Option (V3 ℝ) := none
  valid : Bool := false

/-- A record of nav_standard.json: a velocity with its one uncertainty, an orientation (roll, pitch, heading), or an altitude with the speed of
sound. (sensors.py L437-462, L803-826, L1089-1110) -/
inductive RdiRecord where
  | velocity (t tDvl : ℝ) (v : V3 ℝ) (std : ℝ)
  | orientation (t : ℝ) (a : V3 ℝ) (std : ℝ)
  | altitude (t tDvl a std : ℝ) (sound : Option ℝ)

/-- sensors.py L115-126 `export` with `valid` and `clear` of the three classes (L152-168, L617-628, L996-1010). In the format acfr a valid record
calls `_to_acfr`, which no class defines: `NotImplementedError`, here `attributeError`. -/
def rdiExport (cat : RdiCategory) (acfr : Bool) (c : RdiSetup) (s : RdiVars) : Res (RdiVars × List RdiRecord) :=
  match cat with
  | .velocity =>
    match s.vel, s.stamp, s.stampDvl with
    | some (v, d), some t, some td =>
      if acfr then .error .attributeError else .ok ({ s with vel := none, stampDvl := none }, [.velocity t td v d])
    | _, _, _ => .ok (s, [])
  | .orientation =>
    match s.att, c.attStd, s.stamp with
    | some a, some d, some t =>
      if acfr then .error .attributeError else .ok ({ s with att := none }, [.orientation t a d])
    | _, _, _ => .ok (s, [])
  | .altitude =>
    match s.alt, s.stamp, s.stampAlt with
    | some (a, d), some t, some td =>
      if acfr then .error .attributeError
      else .ok ({ s with alt := none, stampAlt := none, sound := none }, [.altitude t td a d s.sound])
    | _, _, _ => .ok (s, [])

/-- parse_rdi.py L92-113: the time of a `:TS` line, universal time. -/
noncomputable def rdiTime (num : List Char → Res ℝ) (c : RdiSetup) (date : List Char) : Res ℝ := do
  let year ← pyInt (c.century ++ slice date 0 2)
  let month ← pyInt (slice date 2 4)
  let day ← pyInt (slice date 4 6)
  let hour ← pyInt (slice date 6 8)
  let minute ← pyInt (slice date 8 10)
  let second ← pyInt (slice date 10 12)
  let hundredths ← num (slice date 12 14)
  let d : DateTime := ⟨year, month, day, hour, minute, second, 0⟩
  if d.ok then .ok ((d.seconds : ℝ) + hundredths / 100 + c.offset) else .error .valueError

/-- parse_rdi.py L71-74: attitude in radians. -/
noncomputable def rdiAttitude (num : List Char → Res ℝ) (p1 p2 p3 : List Char) : Res (V3 ℝ) := do
  let roll ← num p2
  let pitch ← num p1
  let yaw ← num p3
  .ok ⟨roll * (π / 180), pitch * (π / 180), yaw * (π / 180)⟩

/-- parse_rdi.py L123-135: velocity over ground in m/s, turned by the angle of the dvl, and its uncertainty. -/
noncomputable def rdiVelocities (num : List Char → Res ℝ) (c : RdiSetup) (p1 p2 p3 p4 : List Char) : Res (V3 ℝ × ℝ) := do
  let x ← num p1
  let y ← num p2
  let z ← num p3
  let e ← num p4
  let x := x / 1000
  let y := y / 1000
  .ok (⟨x * cos c.mount - y * sin c.mount, x * sin c.mount + y * cos c.mount, z / 1000⟩, e / 1000)

/-- parse_rdi.py L68-138: one line. -/
noncomputable def rdiLogStep (num : List Char → Res ℝ) (cat : RdiCategory) (acfr : Bool) (c : RdiSetup) (s : RdiVars) (line : List Char) :
    Res (RdiVars × List RdiRecord) :=
  match splitAtSep (· == ',') line with
  | [h, p1, p2, p3] =>
    if h = [':', 'S', 'A'] then do
      let a ← rdiAttitude num p1 p2 p3
      .ok ({ s with att := some a }, [])
    else .ok (s, [])
  | [h, date, _, _, _, p5, _] =>
    if h = [':', 'T', 'S'] then do
      let r ← rdiExport cat acfr c s
      let t ← rdiTime num c date
      let v ← num p5
      .ok ({ r.1 with stamp := some t, stampDvl := some t, stampAlt := some t, sound := some v, valid := false }, r.2)
    else .ok (s, [])
  | [h, p1, p2, p3, p4, p5] =>
    if h = [':', 'B', 'I'] then
      if stripBlanks p5 = ['A'] then do
        let v ← rdiVelocities num c p1 p2 p3 p4
        .ok ({ s with vel := some v, valid := true }, [])
      else .ok (s, [])
    else if h = [':', 'B', 'D'] then
      if s.valid then do
        let a ← num p4
        .ok ({ s with alt := some (a, c.altFactor * a) }, [])
      else .ok (s, [])
    else .ok (s, [])
  | _ => .ok (s, [])

/-- parse_rdi.py L66-140: all lines of the log. -/
noncomputable def rdiLog (num : List Char → Res ℝ) (cat : RdiCategory) (acfr : Bool) (c : RdiSetup) :
    RdiVars → List (List Char) → Res (List RdiRecord)
  | _, [] => .ok []
  | s, l :: ls => do
    let r ← rdiLogStep num cat acfr c s l
    let rest ← rdiLog num cat acfr c r.1 ls
    .ok (r.2 ++ rest)

end Oplab
