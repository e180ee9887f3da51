import Verif.Model.Sonardyne

/-! # `/repo/src/scripts/adjust_alr_to_biocam_time.py`

Not modelled: the plots, the printed warnings (L131-147) and the text of the tables, which pandas reads and writes. Whole numbers are unsigned. -/

namespace Oplab

/-- A poll of the clocks in milliseconds: BioCam before, vehicle, BioCam after. (adjust_alr_to_biocam_time.py L73-75) -/
structure ClockPoll where
  bc0 : ℕ
  alr : ℕ
  bc1 : ℕ
deriving DecidableEq

/-- adjust_alr_to_biocam_time.py L72-75: a line of a serial log; `marked` says whether "poll_time:" is in it. `int` ignores blanks around the
number. -/
def pollLine (marked : List Char → Bool) (line : List Char) : Res (Option ClockPoll) :=
  if marked line then do
    let f := splitAtSep (· = ',') line
    let a ← pyGet f 1
    let a ← pyInt (stripBlanks a)
    let b ← pyGet f 5
    let b ← pyInt (stripBlanks b)
    let c ← pyGet f 7
    let c ← pyInt (stripBlanks c)
    .ok (some ⟨a, b, c⟩)
  else .ok none

/-- adjust_alr_to_biocam_time.py L59-75: the polls of the lines of all logs, in the order the logs are given. -/
def pollLines (marked : List Char → Bool) : List (List Char) → Res (List ClockPoll)
  | [] => .ok []
  | line :: rest => do
    let r ← pollLine marked line
    let rs ← pollLines marked rest
    .ok (r.toList ++ rs)

/-- adjust_alr_to_biocam_time.py L81, L88: `l == sorted(l)`. -/
def sortedNat : List ℕ → Bool
  | a :: b :: l => decide (a ≤ b) && sortedNat (b :: l)
  | _ => true

variable {K : Type} [Field K] [LinearOrder K]

/-- The model of the clocks: vehicle times, BioCam times and slopes. (adjust_alr_to_biocam_time.py L122-124) -/
structure ClockFit (K : Type) where
  times : List K
  offsets : List K
  slopes : List K

/-- adjust_alr_to_biocam_time.py L124-128: the slopes between the polls (vehicle time, BioCam time in ms). Both times are numbers of Python, so
equal vehicle times raise ZeroDivisionError. -/
def pollSlopes : List (K × K) → Res (List K)
  | p :: q :: l =>
    if q.1 - p.1 = 0 then .error .zeroDivision
    else do
      let r ← pollSlopes (q :: l)
      .ok ((q.2 - p.2) / (q.1 - p.1) :: r)
  | _ => .ok []

/-- The vehicle time and the mean of the BioCam times of a poll. (adjust_alr_to_biocam_time.py L95-97) -/
def pollPoint (p : ClockPoll) : K × K := ((p.alr : K), ((p.bc0 : K) + (p.bc1 : K)) / 2)

/-- adjust_alr_to_biocam_time.py L77-128 `analyse_time_differences` after the logs are read. -/
def fitClocks (polls : List ClockPoll) : Res (ClockFit K) :=
  if polls = [] then .error .quit
  else if sortedNat (polls.map ClockPoll.bc0) = false then .error .quit
  else if sortedNat (polls.map ClockPoll.alr) = false then .error .quit
  else do
    let slopes ← pollSlopes (polls.map pollPoint)
    .ok ⟨polls.map fun p => (pollPoint p).1 / 1000, polls.map fun p => (pollPoint p).2 / 1000, slopes⟩

/-- adjust_alr_to_biocam_time.py L153-156: the last interval that starts at or before the time, or the first. -/
def pollIndex (times : List K) (t : K) : ℕ :=
  (List.range (times.length - 1)).foldl (fun j i => if (times[i]?).getD 0 ≤ t then i else j) 0

/-- adjust_alr_to_biocam_time.py L150-159 `correct_timestamp`; `divisions` is `divisions_per_second`, not zero (a time of a pandas column divided
by zero would be infinite). -/
def correctStamp (f : ClockFit K) (divisions stamp : K) : Res K := do
  let t := stamp / divisions
  let j := pollIndex f.times t
  let t0 ← pyGet f.times j
  let m ← pyGet f.slopes j
  let o ← pyGet f.offsets j
  .ok ((t - t0) * m + o)

/-- adjust_alr_to_biocam_time.py L43 `text.replace(".csv", "_corrected.csv")`. -/
def replaceCsv : List Char → List Char
  | '.' :: 'c' :: 's' :: 'v' :: l => ['_', 'c', 'o', 'r', 'r', 'e', 'c', 't', 'e', 'd', '.', 'c', 's', 'v'] ++ replaceCsv l
  | c :: l => c :: replaceCsv l
  | [] => []

/-- adjust_alr_to_biocam_time.py L34-51 `populate_output_file_path` and L166: the inputs that are corrected, each with the file it is written to.
`groups` are the files after each `-a`, of which there is at least one: only the first of every group is used. -/
def outputFiles (exists_ : List Char → Bool) (force : Bool) (groups : List (List (List Char))) : Res (List (List Char × List Char)) :=
  let firsts := groups.filterMap List.head?
  if firsts.all (fun f => f.drop (f.length - 4) = ['.', 'c', 's', 'v']) then
    if force = false ∧ (firsts.any fun f => exists_ (replaceCsv f)) = true then .error .quit
    else .ok (firsts.map fun f => (f, replaceCsv f))
  else .error .quit

/-! ## A run of the script -/

/-- A csv file as pandas reads it: the names of the columns, which pandas makes distinct, and the rows, all as long; an empty cell is `none`.
Cells with text are not modelled: they are copied like the others, and a text cell in the column of times is a TypeError.
(adjust_alr_to_biocam_time.py L168) -/
structure AlrTable (K : Type) where
  names : List (List Char)
  rows : List (List (Option K))
deriving DecidableEq

/-- The name of the new column (adjust_alr_to_biocam_time.py L178). -/
def correctedColumn : List Char := "corrected_timestamp".toList

/-- adjust_alr_to_biocam_time.py L150-159 for a cell: an empty one is NaN, for which no comparison holds. -/
def correctCell (f : ClockFit K) (divisions : K) : Option K → Res (Option K)
  | some s => (correctStamp f divisions s).map some
  | none => do
    let _ ← pyGet f.times 0
    let _ ← pyGet f.slopes 0
    let _ ← pyGet f.offsets 0
    .ok none

/-- adjust_alr_to_biocam_time.py L168-181: what is written for a file. Without rows `df[col][0]` is a KeyError (L176), and `df.insert` is a
ValueError if there is a column of this name. -/
def correctTable (f : ClockFit K) (divisions : K) (col : List Char) (t : AlrTable K) : Res (AlrTable K) :=
  if col ∉ t.names then .error .quit
  else if t.rows = [] then .error .keyError
  else if correctedColumn ∈ t.names then .error .valueError
  else do
    let c ← t.rows.mapM fun r => correctCell f divisions ((r[t.names.idxOf col]?).getD none)
    .ok ⟨correctedColumn :: t.names, (c.zip t.rows).map fun p => p.1 :: p.2⟩

/-- The csv files by their paths. (adjust_alr_to_biocam_time.py L47, L168, L183) -/
abbrev AlrDisk (K : Type) := List Char → Option (AlrTable K)

/-- adjust_alr_to_biocam_time.py L166-183: the files one after the other; the files on the disk at the end, and the error if there is one. -/
def correctFiles (f : ClockFit K) (divisions : K) (col : List Char) : List (List Char × List Char) → AlrDisk K → AlrDisk K × Option Err
  | [], s => (s, none)
  | p :: rest, s =>
    match s p.1 with
    | none => (s, some .valueError)
    | some t =>
      match correctTable f divisions col t with
      | .error e => (s, some e)
      | .ok t' => correctFiles f divisions col rest fun x => if x = p.2 then some t' else s x

/-- adjust_alr_to_biocam_time.py L59-75: the polls of all logs; a log that does not exist is `none`. -/
def readLogs (marked : List Char → Bool) : List (Option (List (List Char))) → Res (List ClockPoll)
  | [] => .ok []
  | none :: _ => .error .quit
  | some lines :: rest => do
    let a ← pollLines marked lines
    let b ← readLogs marked rest
    .ok (a ++ b)

/-- adjust_alr_to_biocam_time.py L35-36: without `-a` there are no files. -/
def givenFiles (exists_ : List Char → Bool) (force : Bool) : Option (List (List (List Char))) → Res (List (List Char × List Char))
  | none => .ok []
  | some g => outputFiles exists_ force g

/-- adjust_alr_to_biocam_time.py L186-248 `main` with its arguments; `groups` is `none` without `-a`. -/
def alrMain (marked : List Char → Bool) (logs : List (Option (List (List Char)))) (groups : Option (List (List (List Char)))) (force : Bool)
    (divisions : K) (col : List Char) (s : AlrDisk K) : AlrDisk K × Option Err :=
  match givenFiles (fun p => (s p).isSome) force groups with
  | .error e => (s, some e)
  | .ok files =>
    match (readLogs marked logs).bind fitClocks with
    | .error e => (s, some e)
    | .ok f => correctFiles f divisions col files s

end Oplab
