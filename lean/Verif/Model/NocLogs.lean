import Verif.Model.ImageParsers
import Verif.Model.Sonardyne
import Verif.Model.SensorFrom
import Verif.Model.Parsers

/-! # Logs of positions and tides

Files `/repo/src/auv_nav/parsers/parse_NOC_nmea.py`, `parse_NOC_polpred.py` and `parse_usbl_dump.py`. Text is a list of characters; the
files of a folder are given as lists of lines. `pynmea2.parse` and `float` of a text are parameters. -/

namespace Oplab

/-- The label of a beacon in mission.yaml: a text or a number, as YAML reads it. (parse_NOC_nmea.py L25, parse_usbl_dump.py L36) -/
inductive BeaconLabel where
  | text (s : List Char)
  | num (n : ℕ)
deriving DecidableEq

/-! ## NMEA -/

/-- What `pynmea2` reads from a telegram; a field that is missing is `none`. (parse_NOC_nmea.py L50-52) -/
structure NmeaMsg (K : Type) where
  station : Option (List Char)
  latitude : K
  longitude : K
  altitude : K

/-- parse_NOC_nmea.py L55-68: the time of a line; `telegram` is the part after the first tab. -/
def nmeaTime (tz off : ℚ) (line telegram : List Char) : Res ℚ := do
  let date ← pyGet (splitAtSep (· = ' ') line) 0
  let hour ← pyGet (splitAtSep (· = ',') telegram) 1
  let yyyy ← pyInt (slice date 6 10)
  let mm ← pyInt (slice date 3 5)
  let dd ← pyInt (slice date 0 2)
  let h ← pyInt (slice hour 0 2)
  let mi ← pyInt (slice hour 2 4)
  let s ← pyInt (slice hour 4 6)
  let f ← fractionRead (slice hour 7 10)
  let e ← dateTimeToEpoch ⟨yyyy, mm, dd, h, mi, s, 0⟩ tz
  .ok (e + f + off)

/-- parse_NOC_nmea.py L52: `int(msg.ref_station_id) != beacon_id`. -/
def nmeaIsBeacon {K : Type} (label : BeaconLabel) (m : NmeaMsg K) : Res Bool :=
  match m.station with
  | none => .error .typeError
  | some s => do
    let n ← pyInt s
    .ok (decide (label = .num n))

/-- parse_NOC_nmea.py L46-72: one line; `none` if it gives no fix. -/
def nmeaLine {K : Type} (parse : List Char → Res (NmeaMsg K)) (label : BeaconLabel) (tz off : ℚ) (line : List Char) :
    Res (Option (ℚ × NmeaMsg K)) :=
  match splitAtSep (· = '\t') line with
  | _ :: telegram :: _ => do
    let m ← parse telegram
    let b ← nmeaIsBeacon label m
    if b then do
      let t ← nmeaTime tz off line telegram
      .ok (some (t, m))
    else .ok none
  | _ => .ok none

/-- parse_NOC_nmea.py L42-73: times and telegrams of the fixes; their values are computed by `usblNmea`. -/
def nmeaLines {K : Type} (parse : List Char → Res (NmeaMsg K)) (label : BeaconLabel) (tz off : ℚ) :
    List (List Char) → Res (List (ℚ × NmeaMsg K))
  | [] => .ok []
  | line :: rest => do
    let r ← nmeaLine parse label tz off line
    let rs ← nmeaLines parse label tz off rest
    .ok (r.toList ++ rs)

/-! ## Tides -/

/-- `int(text)` with the blanks that Python allows around the digits. (parse_NOC_polpred.py L50-54) -/
def blankInt (s : List Char) : Res ℕ := pyInt (stripBlanks s)

/-- parse_NOC_polpred.py L50-63: time, height and standard deviation of a line; `offset` is `std_offset`, which `Tide` takes for a factor
(L30). -/
def polLine {K : Type} [Field K] (toFloat : List Char → Res K) (offset : K) (tz off : ℚ) (line : List Char) : Res (ℚ × K × K) := do
  let dd ← blankInt (slice line 0 2)
  let mm ← blankInt (slice line 3 5)
  let yyyy ← blankInt (slice line 6 10)
  let h ← blankInt (slice line 12 14)
  let mi ← blankInt (slice line 15 17)
  let e ← dateTimeToEpoch ⟨yyyy, mm, dd, h, mi, 0, 0⟩ tz
  let height ← toFloat (slice line 22 28)
  .ok (e + off, height, height * offset)

/-- The lines of a file one after the other. (parse_NOC_polpred.py L48-66) -/
def polLines {K : Type} [Field K] (toFloat : List Char → Res K) (offset : K) (tz off : ℚ) : List (List Char) → Res (List (ℚ × K × K))
  | [] => .ok []
  | line :: rest => do
    let r ← polLine toFloat offset tz off line
    let rs ← polLines toFloat offset tz off rest
    .ok (r :: rs)

/-- parse_NOC_polpred.py L45-68: the files one after the other, each without its first six lines. -/
def parsePolpred {K : Type} [Field K] (toFloat : List Char → Res K) (offset : K) (tz off : ℚ) : List (List (List Char)) → Res (List (ℚ × K × K))
  | [] => .ok []
  | file :: rest => do
    let r ← polLines toFloat offset tz off (file.drop 6)
    let rs ← parsePolpred toFloat offset tz off rest
    .ok (r ++ rs)

/-! ## Dumps -/

/-- The values of a fix in a dump. (parse_usbl_dump.py L83-118) -/
structure DumpFix (K : Type) where
  t : ℚ
  latitude : K
  longitude : K
  depth : K
  distance : K
  lateral : K
  bearing : K

/-- parse_usbl_dump.py L58-79: the time of a line. -/
def dumpTime (tz off : ℚ) (fields : List (List Char)) : Res ℚ := do
  let f0 ← pyGet fields 0
  let date := splitAtSep (· = '-') f0
  let yyyy ← pyGet date 0 >>= pyInt
  let mm ← pyGet date 1 >>= pyInt
  let dd ← pyGet date 2 >>= pyInt
  let f1 ← pyGet fields 1
  let time := splitAtSep (· = ':') f1
  let h ← pyGet time 0 >>= pyInt
  let mi ← pyGet time 1 >>= pyInt
  let s ← pyGet time 2 >>= pyInt
  let e ← dateTimeToEpoch ⟨yyyy, mm, dd, h, mi, s, 0⟩ tz
  .ok (e + off)

/-- parse_usbl_dump.py L83-104: a field like "34-12.345 N"; `pos` is the letter of the positive half. -/
def dumpAngle {K : Type} [Field K] (toFloat : List Char → Res K) (pos : String) (field : List Char) : Res K := do
  let full := splitAtSep (· = ' ') field
  let f ← pyGet full 0
  let parts := splitAtSep (· = '-') f
  let deg ← pyGet parts 0 >>= pyInt
  let minutes ← pyGet parts 1 >>= toFloat
  let hemi ← pyGet full 1
  .ok (usblDumpDegMin deg minutes pos (String.ofList hemi))

/-- parse_usbl_dump.py L106-118: the number after the sign "=". -/
def dumpValue {K : Type} (toFloat : List Char → Res K) (field : List Char) : Res K :=
  pyGet (splitAtSep (· = '=') field) 1 >>= toFloat

/-- parse_usbl_dump.py L81-118: the fix of a line, if it has a position. -/
def dumpFix {K : Type} [Field K] (toFloat : List Char → Res K) (t : ℚ) (fields : List (List Char)) : Res (Option (DumpFix K)) := do
  let f6 ← pyGet fields 6
  if f6 = [] then .ok none
  else do
    let lat ← dumpAngle toFloat "N" f6
    let lon ← pyGet fields 7 >>= dumpAngle toFloat "E"
    let depth ← pyGet fields 8 >>= dumpValue toFloat
    let distance ← pyGet fields 11 >>= dumpValue toFloat
    let lateral ← pyGet fields 9 >>= dumpValue toFloat
    let bearing ← pyGet fields 10 >>= dumpValue toFloat
    .ok (some ⟨t, lat, lon, depth, distance, lateral, bearing⟩)

/-- parse_usbl_dump.py L54-118: one line. -/
def dumpLine {K : Type} [Field K] (toFloat : List Char → Res K) (label : BeaconLabel) (tz off : ℚ) (line : List Char) :
    Res (Option (DumpFix K)) := do
  let fields := splitAtSep (· = ',') (stripBlanks line)
  let f2 ← pyGet fields 2
  if .text f2 = label then do
    let t ← dumpTime tz off fields
    dumpFix toFloat t fields
  else .ok none

/-- parse_usbl_dump.py L52-218: the fixes of a file; positions in metres and uncertainties (L120-150) are in C150. -/
def parseDump {K : Type} [Field K] (toFloat : List Char → Res K) (label : BeaconLabel) (tz off : ℚ) : List (List Char) → Res (List (DumpFix K))
  | [] => .ok []
  | line :: rest => do
    let r ← dumpLine toFloat label tz off line
    let rs ← parseDump toFloat label tz off rest
    .ok (r.toList ++ rs)

/-- parse_usbl_dump.py L130-150, L193-218: what the acfr format writes for a fix: ship north and east, target north, east and depth,
horizontal and slant range, bearing. `metres` is `latlon_to_metres` from the origin. -/
noncomputable def dumpAcfr (metres : ℝ → ℝ → ℝ × ℝ) (f : DumpFix ℝ) : List ℝ :=
  let db := metres f.latitude f.longitude
  [(f.t : ℝ), 0, 0, Real.cos (db.2 * Real.pi / 180) * db.1, Real.sin (db.2 * Real.pi / 180) * db.1, f.depth, f.lateral, f.distance, f.bearing]

end Oplab
