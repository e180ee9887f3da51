import Verif.Model.Parsers
import Verif.Model.SensorJson
import Verif.Model.ProcessRun

/-! From what the parsers return to what the processing works on: nav_standard.json is compiled, sorted and read again. -/

namespace Oplab

/-- A record with the text of its time stamp; `none` is Python's `None`, which `export` returns for data that are not valid
(sensors.py L115-126) and parsers append as it is (e.g. parse_rosbag.py L76-77, parse_NOC_nmea.py L71-72). -/
abbrev NavRecord := Option (Stamp × Json ℚ)

/-- parse.py L664-680: the record of the origin, `data` being its coordinates, name of the system and date. -/
def originRecord (data : Json ℚ) : Stamp × Json ℚ :=
  (⟨[0], [0]⟩, .obj [("epoch_timestamp", .num 0), ("class", .str "origin"), ("category", .str "origin"), ("data", data)])

/-- parse.py L686-696, L762: the results of the parsers that are kept (the corrections of L697-761 are not in here). -/
def keepResults (results : List (List NavRecord)) : List (List NavRecord) :=
  results.filter fun r => match r with
    | [] => false
    | none :: _ => false
    | some _ :: _ => true

/-- parse.py L664-681, L762-774: what is first written to nav_standard.json. -/
def compileNav (origin : Json ℚ) (results : List (List NavRecord)) : List NavRecord :=
  some (originRecord origin) :: (keepResults results).flatten

/-- parse_interlacer.py L31-36: the time stamp of every entry is read; that of `None` raises `TypeError`, which is not caught. -/
def readEntries : List NavRecord → Res (List (Stamp × Json ℚ))
  | [] => .ok []
  | none :: _ => .error .typeError
  | some e :: l => do
    let r ← readEntries l
    .ok (e :: r)

/-- What is in the file if `parse` is stopped after it was first written and before it is sorted (parse.py L764-783). -/
def interruptedNav (origin : Json ℚ) (results : List (List NavRecord)) : List (Json ℚ) :=
  (compileNav origin results).map fun e => match e with
    | some e => e.2
    | none => .null

/-- parse.py L781-783: the file is read, sorted and written again. -/
def parseNav (origin : Json ℚ) (results : List (List NavRecord)) : Res (List (Json ℚ)) := do
  let l ← readEntries (compileNav origin results)
  let out ← interlace l
  .ok (out.map Prod.snd)

/-- process.py L421-502: the file is read, the window chosen and the records are sorted into lists.  The times of all entries are
read before the window is chosen, of which the code needs the second and the last only; an entry without one stops both. -/
def processNav (llStd : Option ℚ → Option ℚ → Option ℚ → Option ℚ → ℚ → ℚ → Res (Option ℚ × Option ℚ)) (cfg : StdCfg ℚ)
    (nCams : Nat) (start finish : List Char) (file : List (Json ℚ)) : Res (Loaded ℚ) := do
  let times ← file.mapM fun j => do
    let t ← j.at1 "epoch_timestamp"
    reqNum t
  let w ← timeWindow times start finish
  loadAll llStd cfg w.1 w.2 nCams file

end Oplab
