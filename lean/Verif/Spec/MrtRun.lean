import Verif.Spec.Sonardyne
import Verif.Spec.RdiLog

/-! What a log of the Sonardyne MRT holds, and the text it is written as. -/

namespace Oplab.Spec

/-- The values of a record that are not used, and its three validity flags. -/
structure MrtRest where
  obsUid : List Char
  sourceUid : List Char
  parentUid : List Char
  parentName : List Char
  assocUid : List Char
  filterUid : List Char
  fixNumber : List Char
  valid1 : List Char
  valid2 : List Char
  valid3 : List Char

/-- An entry of a log: a position or an attitude, of a named source at a time, or a record of another type. -/
inductive MrtEntry where
  | position (source time : List Char) (lat lon alt : Numeral) (rest : MrtRest)
  | attitude (source time : List Char) (pitch roll heading : Numeral) (rest : MrtRest)
  | other (name : List Char) (values : List (List Char))

/-- The nine values every record begins with. -/
def mrtLeading (source time : List Char) (r : MrtRest) : List (List Char) :=
  [r.obsUid, r.sourceUid, source, r.parentUid, r.parentName, r.assocUid, time, r.filterUid, r.fixNumber]

/-- The name of the type of a record. -/
def MrtEntry.name : MrtEntry → List Char
  | .position .. => "LatLongObs".toList
  | .attitude .. => "PitchRollHeadingObs".toList
  | .other name _ => name

/-- The values of a record. -/
def MrtEntry.values : MrtEntry → List (List Char)
  | .position s t lat lon alt r => mrtLeading s t r ++ [lat.text, lon.text, alt.text, r.valid1, r.valid2, r.valid3]
  | .attitude s t pitch roll heading r => mrtLeading s t r ++ [pitch.text, roll.text, heading.text, r.valid1, r.valid2, r.valid3]
  | .other _ vs => vs

/-- The line of a record. -/
def MrtEntry.line (e : MrtEntry) : List Char := commaText (e.name :: e.values) ++ ['\n']

/-- A file: a first record, 35 lines of header, and the other records. -/
structure MrtLogFile where
  first : MrtEntry
  header : List (List Char)
  body : List MrtEntry

/-- The lines of a file. -/
def MrtLogFile.lines (f : MrtLogFile) : List (List Char) := f.first.line :: f.header ++ f.body.map MrtEntry.line

/-- The records of a file. -/
def MrtLogFile.entries (f : MrtLogFile) : List MrtEntry := f.first :: f.body

/-- A position with its time. -/
structure MrtPoint where
  time : ℝ
  lat : ℝ
  lon : ℝ
  alt : ℝ

/-- The positions of a source; `clock` reads the texts of times. -/
noncomputable def mrtPoints (clock : List Char → Option ℝ) (source : List Char) (es : List MrtEntry) : List MrtPoint :=
  es.filterMap fun e => match e with
    | .position s t lat lon alt _ => if s = source then (clock t).map fun x => ⟨x, lat.value, lon.value, alt.value⟩ else none
    | _ => none

/-- The headings of a source with their times. -/
noncomputable def mrtHeadings (clock : List Char → Option ℝ) (source : List Char) (es : List MrtEntry) : List (ℝ × ℝ) :=
  es.filterMap fun e => match e with
    | .attitude s t _ _ heading _ => if s = source then (clock t).map fun x => (x, heading.value) else none
    | _ => none

end Oplab.Spec
