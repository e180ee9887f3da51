import Mathlib.Analysis.SpecialFunctions.Trigonometric.Basic
import Mathlib.Analysis.SpecialFunctions.Sqrt
import Mathlib.Data.List.Sort
import Verif.Model.Sync
import Verif.Model.Time

/-! /repo/src/auv_nav/parsers/parse_sonardyne_mrt.py: USBL logs of the Sonardyne MRT (comma separated records) and of its
GGA outputs. Text is a list of characters; Python's `float`, `int` and `strptime` on text and the geodesic library are parameters. -/

namespace Oplab

/-! ## Lines to fields -/

/-- Python `line.split(sep)` for a set of one-character separators (parse_sonardyne_mrt.py L487; `re.split` at L254, L308, L367, L430). -/
def splitAtSep (sep : Char → Bool) : List Char → List (List Char)
  | [] => [[]]
  | c :: cs =>
    if sep c then [] :: splitAtSep sep cs
    else (c :: (splitAtSep sep cs).headD []) :: (splitAtSep sep cs).tail

/-- parse_sonardyne_mrt.py L490-496, one turn: a piece that starts with a blank is joined to the previous field. -/
def mrtMerge (values : List (List Char)) (raw : List Char) : Res (List (List Char)) :=
  if raw.head? = some ' ' then
    match values.getLast? with
    | some v => .ok (values.dropLast ++ [v ++ ',' :: raw])
    | none => .error .indexError
  else .ok (values ++ [raw])

/-- parse_sonardyne_mrt.py L487-496. -/
def mrtFields (line : List Char) : Res (List (List Char)) := (splitAtSep (· = ',') line).foldlM mrtMerge []

/-- Blanks removed by `str.strip` (ASCII only). (L498) -/
def isBlank (c : Char) : Bool := c = ' ' ∨ c = '\n' ∨ c = '\t' ∨ c = '\r'

/-- `str.strip`. (L498) -/
def stripBlanks (s : List Char) : List Char := ((s.dropWhile isBlank).reverse.dropWhile isBlank).reverse

/-- parse_sonardyne_mrt.py L487-498: the values of a line. -/
def mrtValues (line : List Char) : Res (List (List Char)) := do
  let values ← mrtFields line
  match values.getLast? with
  | some v => .ok (values.dropLast ++ [stripBlanks v])
  | none => .error .indexError

/-! ## Records -/

/-- The record types that are built from all values of the line, with the number of values each takes after its name
(parse_sonardyne_mrt.py L21-239 and L500-519, L535-546; `epoch_timestamp` and the `closest_…` fields are not constructor arguments). -/
def mrtArity : List (String × Nat) :=
  [("AccelerationObs", 15), ("PitchRollObs", 13), ("PitchRollHeadingObs", 15), ("DisplacementObs", 15), ("DepthObs", 11),
   ("HeadingObs", 11), ("GPSLatLongObs", 20), ("LatLongObs", 15), ("GridPositionObs", 18), ("USBLVectorObs", 19),
   ("VelocityObs", 15), ("Event", 11), ("EstimateTrackerMetrics", 16), ("Alarm", 17), ("AlarmStateChange", 16)]

/-- An observation: its type and the values given to the constructor. -/
structure MrtObs where
  kind : String
  args : List (List Char)
  deriving DecidableEq

/-- The number of values `USBLRangeObs` takes (L179-190). -/
def usblRangeArity : Nat := 19

/-- parse_sonardyne_mrt.py L520-534 `USBLRangeObs`: the inner records take 28, 4, 19 and 19 values; what remains is
nine values, the three records, `values[64:69]`, a record and `values[89:91]`. The inner records are written as empty values. -/
def usblRangeObs (values : List (List Char)) : Res MrtObs :=
  let cut (a b : Nat) := (values.take b).drop a
  if (cut 11 39).length = 28 ∧ (cut 40 44).length = 4 ∧ (cut 45 64).length = 19 ∧ (cut 70 89).length = 19 then
    let newValues := cut 1 10 ++ [[]] ++ [[]] ++ [[]] ++ cut 64 69 ++ [[]] ++ cut 89 91
    if newValues.length = usblRangeArity then .ok ⟨"USBLRangeObs", newValues⟩ else .error .typeError
  else .error .typeError

/-- What a line stands for (parse_sonardyne_mrt.py L500-552). -/
inductive MrtLine where
  | obs (o : MrtObs)
  | job
  | unknown
  deriving DecidableEq

/-- parse_sonardyne_mrt.py L500-552. A wrong number of values is a TypeError of the constructor; `Time` indexes the values. -/
def mrtLine (values : List (List Char)) : Res MrtLine :=
  match values with
  | [] => .error .indexError
  | name :: args =>
    let kind := String.ofList name
    match mrtArity.lookup kind with
    | some n => if args.length = n then .ok (.obs ⟨kind, args⟩) else .error .typeError
    | none =>
      if kind = "USBLRangeObs" then (usblRangeObs values).map .obs
      else if kind = "Time" then do
        let a ← pyGet values 2
        let b ← pyGet values 4
        .ok (.obs ⟨kind, [a, b]⟩)
      else if kind = "JobData" then .ok .job
      else .ok .unknown

/-- parse_sonardyne_mrt.py L481-554, one line: `last` is the variable `obs`, which a `JobData` line leaves as it was. -/
def mrtStep (s : Option MrtObs × List MrtObs) (l : MrtLine) : Res (Option MrtObs × List MrtObs) :=
  match l with
  | .obs o => .ok (some o, s.2 ++ [o])
  | .unknown => .ok s
  | .job =>
    match s.1 with
    | some o => .ok (some o, s.2 ++ [o])
    | none => .error .unboundLocal

/-- parse_sonardyne_mrt.py L481-483: lines 1 to 35 of the file are skipped (line 0 is not). -/
def mrtBody {α : Type} (lines : List α) : List α := lines.take 1 ++ lines.drop 36

/-- parse_sonardyne_mrt.py L499-554 on decoded lines. -/
def mrtRecords (ls : List MrtLine) : Res (List MrtObs) := do
  let s ← ls.foldlM mrtStep (none, [])
  .ok s.2

/-- parse_sonardyne_mrt.py L476-554 `parse_mrt_csv`. (All lines are decoded before the first observation is kept; only
which of two errors comes first differs from the code.) -/
def parseMrtCsv (lines : List (List Char)) : Res (List MrtObs) := do
  let ls ← (mrtBody lines).mapM fun line => mrtValues line >>= mrtLine
  mrtRecords ls

/-! ## Ship positions -/

section Closest
variable {K : Type} [LinearOrder K]

/-- parse_sonardyne_mrt.py L593-595 and L597-599: `while stamp < t and idx < len - 1: idx += 1`. -/
def shipSeek (ts : List K) (t : K) (j : Nat) : Nat :=
  seekIdx (ts.length - 1) (fun k => (ts[k]?).any fun s => s < t) ts.length j

/-- parse_sonardyne_mrt.py L582-604: for each position of the vehicle, in time order, the indices of the ship position
and heading stored with it (`none` after the loop has been left). -/
def closestLoop (ships headings : List K) (i j : Nat) : List K → List (Option (Nat × Nat))
  | [] => []
  | t :: rest =>
    if ships.length ≤ i ∨ headings.length ≤ j then none :: rest.map fun _ => none
    else
      some (shipSeek ships t i, shipSeek headings t j) ::
        closestLoop ships headings (shipSeek ships t i) (shipSeek headings t j) rest

/-- `list.sort(key=lambda x: x.epoch_timestamp)` (L573-575), on the time stamps. A time that could not be read is `None`
and makes the sort fail; not modelled. -/
def sortStamps (ts : List K) : List K := ts.insertionSort (· ≤ ·)

/-- parse_sonardyne_mrt.py L557-605 `find_closest_observations`, on the time stamps: the positions of the vehicle in time
order with the time of the ship position and of the heading stored with each. -/
def findClosest (auv ships headings : List K) : List (K × Option (K × K)) :=
  let sh := sortStamps ships
  let hd := sortStamps headings
  let au := sortStamps auv
  au.zip ((closestLoop sh hd 0 0 au).map fun o => o.bind fun p => (sh[p.1]?).bind fun a => (hd[p.2]?).map fun b => (a, b))

end Closest

/-! ## Fixes -/

/-- A USBL fix as written by the parser (the fields computed by it). -/
structure SonardyneFix where
  t : ℝ
  latitude : ℝ
  longitude : ℝ
  latitudeStd : ℝ
  longitudeStd : ℝ
  northings : ℝ
  eastings : ℝ
  std : ℝ
  depth : ℝ
  distance : ℝ
  northingsShip : ℝ
  eastingsShip : ℝ

/-- parse_sonardyne_mrt.py L670-673 and L682-687: northings and eastings of a point at distance `d` and bearing `b` degrees. -/
noncomputable def polarNorthEast (d b : ℝ) : ℝ × ℝ :=
  (Real.cos (b * Real.pi / 180) * d, Real.sin (b * Real.pi / 180) * d)

/-- parse_sonardyne_mrt.py L652-743: the fix of one position. `inv lat lon lat0 lon0` is `latlon_to_metres` (distance and
bearing from the second point to the first), `dir` is `metres_to_latlon`; `stamp` is the time read from the record. -/
noncomputable def mrtFix (inv : ℝ → ℝ → ℝ → ℝ → ℝ × ℝ) (dir : ℝ → ℝ → ℝ → ℝ → ℝ × ℝ) (factor offset tzHours timeoffset : ℝ)
    (lat0 lon0 : ℝ) (stamp lat lon altitude latShip lonShip : ℝ) : SonardyneFix :=
  let depth := -altitude
  let lateral := (inv lat lon latShip lonShip).1
  let distance := Real.sqrt (lateral * lateral + depth * depth)
  let ship := inv latShip lonShip lat0 lon0
  let target := inv lat lon lat0 lon0
  let std := factor * distance + offset
  let off := dir |lat| |lon| std std
  { t := stamp + (-tzHours * 60 * 60 + timeoffset)
    latitude := lat
    longitude := lon
    latitudeStd := |(|lat|) - off.1|
    longitudeStd := |(|lon|) - off.2|
    northings := (polarNorthEast target.1 target.2).1
    eastings := (polarNorthEast target.1 target.2).2
    std := std
    depth := depth
    distance := distance
    northingsShip := (polarNorthEast ship.1 ship.2).1
    eastingsShip := (polarNorthEast ship.1 ship.2).2 }

/-- parse_sonardyne_mrt.py L620 with L34-38 and L703: the time of an MRT fix, for a clock reading of `civil` seconds since
1970-01-01 00:00 (of the clock). `datetime.timestamp()` reads it in the time zone of the computer, `here` hours ahead of UTC. -/
def mrtTime {K : Type} [Field K] (here tzHours timeoffset civil : K) : K :=
  (civil - here * 3600) + (-tzHours * 60 * 60 + timeoffset)

/-- parse_sonardyne_mrt.py L762 and L824-825 (also L884, L947-948; L1007, L1070-1071; L1130, L1193-1194): the time of a GGA fix. -/
def ggaTime {K : Type} [Field K] (here tzHours timeoffset civil : K) : K :=
  (civil - here * 3600) + (-tzHours * 60 * 60 - timeoffset)

/-! ## GGA -/

/-- Where a GGA format keeps its values: parse_sonardyne_mrt.py L257-269 (`gga`), L312-327 (`gga2`), L373-389 (`gga3`), L434-447 (`gga4`). -/
structure GgaFormat where
  id : Nat
  lat : Nat
  fileDate : Bool

/-- parse_sonardyne_mrt.py L242-294 `parse_gga_txt`. -/
def gga1 : GgaFormat := ⟨9, 5, true⟩
/-- parse_sonardyne_mrt.py L296-353 `parse_gga2_txt`. -/
def gga2 : GgaFormat := ⟨19, 8, false⟩
/-- parse_sonardyne_mrt.py L355-416 `parse_gga3_txt`. -/
def gga3 : GgaFormat := ⟨20, 8, false⟩
/-- parse_sonardyne_mrt.py L418-473 `parse_gga4_txt`. -/
def gga4 : GgaFormat := ⟨17, 5, true⟩

/-- The separators of `re.split(",| |\*", …)` (L254, L308, L367, L430). -/
def ggaSep (c : Char) : Bool := c = ',' ∨ c = ' ' ∨ c = '*'

section Gga
variable {K : Type} [Field K]

/-- What is kept of a row: latitude, longitude and the text of the time. -/
structure GgaObs (K : Type) where
  lat : K
  lon : K
  time : List Char
  deriving DecidableEq

/-- parse_sonardyne_mrt.py L265-268 (also L322-325, L384-387, L442-445): degrees (`w` characters) and minutes, times the sign. -/
def ggaDegrees (toFloat : List Char → Res K) (w : Nat) (text : List Char) (sign : K) : Res K := do
  let d ← toFloat (text.take w)
  let m ← toFloat (text.drop w)
  .ok ((d + m / 60) * sign)

/-- parse_sonardyne_mrt.py L269, L447 (date from the name of the file) and L327, L389 (date and time from the row): the text of the time. -/
def ggaTimeText (f : GgaFormat) (stem : List Char) (date time : List Char) : List Char :=
  if f.fileDate then
    slice stem 0 4 ++ ['-'] ++ slice stem 4 6 ++ ['-'] ++ slice stem 6 8 ++ [' '] ++ time
  else
    slice date 0 4 ++ ['-'] ++ slice date 5 7 ++ ['-'] ++ slice date 8 10 ++ [' '] ++ slice time 0 2 ++ [':'] ++
      slice time 3 5 ++ [':'] ++ slice time 6 8 ++ ['.'] ++ time.drop 9

/-- parse_sonardyne_mrt.py L256-291 (and its copies), inside the `try`: `none` for a row of another beacon (`continue`). The date `data[0]` is read
only by the formats that use it, the first value of a split always exists. -/
def ggaRow (toFloat : List Char → Res K) (toInt : List Char → Res Int) (f : GgaFormat) (fieldId : Int) (stem : List Char)
    (data : List (List Char)) : Res (Option (GgaObs K)) := do
  let id ← pyGet data f.id >>= toInt
  if id ≠ fieldId then .ok none
  else do
    let ns ← pyGet data (f.lat + 1 : Nat)
    let ew ← pyGet data (f.lat + 3 : Nat)
    let latText ← pyGet data f.lat
    let lonText ← pyGet data (f.lat + 2 : Nat)
    let lat ← ggaDegrees toFloat 2 latText (if ns = ['S'] then -1 else 1)
    let lon ← ggaDegrees toFloat 3 lonText (if ew = ['W'] then -1 else 1)
    let date ← pyGet data 0
    let time ← pyGet data 1
    .ok (some ⟨lat, lon, ggaTimeText f stem date time⟩)

/-- parse_sonardyne_mrt.py L255-294 (and its copies): `except: warn` drops a row that cannot be read. -/
def ggaRows (toFloat : List Char → Res K) (toInt : List Char → Res Int) (f : GgaFormat) (fieldId : Int) (stem : List Char)
    (acc : List (GgaObs K)) : List (List (List Char)) → List (GgaObs K)
  | [] => acc
  | data :: rest =>
    match ggaRow toFloat toInt f fieldId stem data with
    | .ok (some o) => ggaRows toFloat toInt f fieldId stem (acc ++ [o]) rest
    | .ok none => ggaRows toFloat toInt f fieldId stem acc rest
    | .error _ => ggaRows toFloat toInt f fieldId stem acc rest

/-- `parse_gga_txt` and its copies on the lines of a file (L242-294, L296-353, L355-416, L418-473). -/
def parseGga (toFloat : List Char → Res K) (toInt : List Char → Res Int) (f : GgaFormat) (fieldId : Int)
    (file : List Char × List (List Char)) : List (GgaObs K) :=
  ggaRows toFloat toInt f fieldId file.1 [] (file.2.map (splitAtSep ggaSep))

/-- parse_sonardyne_mrt.py L805-866 (and its copies): the time and position of each fix. `strptime` reads the time (`none` is a ValueError);
nothing is caught here. -/
def ggaFixes (strptime : List Char → Option K) (here tzHours timeoffset : K) : List (GgaObs K) → Res (List (K × K × K))
  | [] => .ok []
  | o :: rest =>
    match strptime o.time with
    | none => .error .valueError
    | some civil => do
      let fs ← ggaFixes strptime here tzHours timeoffset rest
      .ok ((ggaTime here tzHours timeoffset civil, o.lat, o.lon) :: fs)

/-- parse_sonardyne_mrt.py L746-866 `parse_sonardyne_gga` and its copies L868-989, L991-1112, L1114-1235: the files of the folder in order of
name, each given by its stem and lines. -/
def parseSonardyneGga (toFloat : List Char → Res K) (toInt : List Char → Res Int) (strptime : List Char → Option K)
    (here tzHours timeoffset : K) (f : GgaFormat) (fieldId : Int) (files : List (List Char × List (List Char))) :
    Res (List (K × K × K)) :=
  ggaFixes strptime here tzHours timeoffset (files.flatMap (parseGga toFloat toInt f fieldId))

end Gga

end Oplab
