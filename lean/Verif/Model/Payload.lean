import Verif.Model.CsvLoad
import Verif.Model.Time

/-!
# Payloads

Models /repo/src/auv_nav/parsers/generic_csv_payload_parser.py, the rows of `Payload` in /repo/src/auv_nav/sensors.py and the reading of payloads in
/repo/src/auv_nav/process.py.
-/

namespace Oplab

/-- A value of a table as `pandas.read_csv` typed it (generic_csv_payload_parser.py L13): an integer, a floating-point number or a text. -/
inductive PCell
  | int (n : ℤ)
  | num (x : ℚ)
  | text (t : Text)
  deriving DecidableEq

/-- A text cell. (generic_csv_payload_parser.py L16) -/
def PCell.isText : PCell → Bool
  | .text _ => true
  | _ => false

/-- A floating-point cell. (generic_csv_payload_parser.py L16) -/
def PCell.isNum : PCell → Bool
  | .num _ => true
  | _ => false

/-- A table: the names of the columns and the rows. (generic_csv_payload_parser.py L13; `read_csv` makes the names different) -/
structure PTable where
  columns : List String
  rows : List (List PCell)

/-- One measurement of a payload. (sensors.py L2125-2132) -/
structure PayloadRec where
  epoch : ℚ
  data : List (String × PCell)

/-- generic_csv_payload_parser.py L16 `df.iterrows()`: a row has one type; if no value is a text and one is a floating-point number, integers become
floating-point numbers, `round` is that conversion. -/
def rowSeries (round : ℤ → ℚ) (r : List PCell) : List PCell :=
  if r.any PCell.isText then r
  else if r.any PCell.isNum then r.map fun c => match c with
    | .int n => .num (round n)
    | c => c
  else r

/-- generic_csv_payload_parser.py L14: assign a column, in place if there is one of that name, otherwise at the end. -/
def setColumn (name : String) (v : PCell) : List (String × PCell) → List (String × PCell)
  | [] => [(name, v)]
  | (k, w) :: r => if k = name then (name, v) :: r else (k, w) :: setColumn name v r

/-- generic_csv_payload_parser.py L19 `row["epoch_timestamp"] + timeoffset_s`. -/
def addSeconds : PCell → ℚ → Res ℚ
  | .int n, dt => .ok (n + dt)
  | .num x, dt => .ok (x + dt)
  | .text _, _ => .error .typeError

/-- generic_csv_payload_parser.py L14-24: one row. -/
def payloadRow (round : ℤ → ℚ) (columns : List String) (dt : ℚ) (r : List PCell) : Res PayloadRec := do
  let t ← column (columns.zip r) "corrected_timestamp"
  let table := setColumn "epoch_timestamp" t (columns.zip r)
  let row := (table.map Prod.fst).zip (rowSeries round (table.map Prod.snd))
  let e ← column row "epoch_timestamp"
  let e ← addSeconds e dt
  pure ⟨e, row.filter fun c => c.1 ≠ "epoch_timestamp"⟩

/-- generic_csv_payload_parser.py L6-25. A table without rows still needs the column. -/
def parsePayload (round : ℤ → ℚ) (dt : ℚ) (t : PTable) : Res (List PayloadRec) :=
  if "corrected_timestamp" ∈ t.columns then t.rows.mapM (payloadRow round t.columns dt) else .error .keyError

/-- The pose of a payload. (sensors.py L2149-2163) -/
structure PayloadPose where
  northings : Text
  eastings : Text
  depth : Text
  altitude : Text
  latitude : Text
  longitude : Text

/-- sensors.py L2134-2147 `get_csv_header` for data by column. -/
def payloadHeader (p : PayloadRec) : List String :=
  ["northing [m]", "easting [m]", "depth [m]", "altitude [m]", "latitude [deg]", "longitude [deg]"] ++ p.data.map Prod.fst

/-- sensors.py L2149-2172 `to_csv_row` for data by column; `txt` is `str`. -/
def payloadFields (txt : PCell → Text) (q : PayloadPose) (p : PayloadRec) : List Text :=
  [q.northings, q.eastings, q.depth, q.altitude, q.latitude, q.longitude] ++ p.data.map fun c => txt c.2

/-- What mission.yaml says about a payload. (process.py L516-522) -/
structure PayloadSource where
  format : String
  table : PTable
  timeoffset : ℚ

/-- process.py L508-524: read the payloads of the vehicle in their order. `mission.payloads[payload]` is a look-up by name. -/
def readPayloads (round : ℤ → ℚ) (mission : List (String × PayloadSource)) : List String → Res (List (String × List PayloadRec))
  | [] => .ok []
  | name :: rest =>
    match mission.lookup name with
    | none => .error .keyError
    | some e =>
      if e.format = "generic_csv" then do
        let l ← parsePayload round e.timeoffset e.table
        let r ← readPayloads round mission rest
        pure ((name, l) :: r)
      else .error .quit

end Oplab
