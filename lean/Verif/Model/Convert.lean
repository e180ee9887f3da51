import Mathlib.Algebra.Order.Field.Rat
import Verif.Model.Parsers
import Verif.Model.Time

/-! `auv_nav convert` (which files it writes), the worker pool of `auv_nav parse`, and the time stamps of GAPS fixes. -/

namespace Oplab

/-! ## Conversion -/

/-- A path as its components below the output folder. -/
abbrev RelPath := List String

/-- Files (with their text) and folders of the output folder. -/
structure Disk where
  file : RelPath → Option String
  dir : RelPath → Bool

/-- The steps of a conversion that look at or change the output folder: quit when one of the files exists, quit when the
folder exists, make a folder (with its parents), write a file; the first two only without the force flag. -/
inductive ConvStep where
  | guardFiles (ps : List RelPath)
  | guardDir (p : RelPath)
  | mkdir (p : RelPath)
  | write (p : RelPath) (text : String)
  deriving DecidableEq

/-- `path.open("w")` and writing the text. (/repo/src/auv_nav/tools/csv_tools.py L65-91) -/
def Disk.write (d : Disk) (p : RelPath) (text : String) : Disk :=
  { d with file := fun q => if q = p then some text else d.file q }

/-- `path.mkdir(parents=True, exist_ok=True)`. (csv_tools.py L51-56) -/
def Disk.mkdir (d : Disk) (p : RelPath) : Disk :=
  { d with dir := fun q => d.dir q || q.isPrefixOf p }

/-- Running the steps of a conversion: the folder afterwards, and whether it was stopped.
(the order of the statements of /repo/src/auv_nav/convert.py L37-376) -/
def runConv (force : Bool) (d : Disk) : List ConvStep → Disk × Option Err
  | [] => (d, none)
  | .guardFiles ps :: r =>
    if ps.any (fun p => (d.file p).isSome) && !force then (d, some .quit) else runConv force d r
  | .guardDir p :: r => if d.dir p && !force then (d, some .quit) else runConv force d r
  | .mkdir p :: r => runConv force (d.mkdir p) r
  | .write p t :: r => runConv force (d.write p t) r

/-- Data handed to `write_csv`: number of entries, text of the CSV file and, if the entries have one, of the
covariance file. -/
structure CsvData where
  rows : Nat
  text : String
  cov : Option String

/-- /repo/src/auv_nav/tools/csv_tools.py L48-76 `write_csv`, as far as the names of the files go: `name` is extended by
".csv" and "_cov.csv"; nothing is written for less than two entries. -/
def csvSteps (name : String) (c : CsvData) : List ConvStep :=
  if 1 < c.rows then
    .mkdir [] :: .write [name ++ ".csv"] c.text :: (match c.cov with
      | some t => [.write [name ++ "_cov.csv"] t]
      | none => [])
  else []

/-- /repo/src/auv_nav/convert.py L122-205 `acfr_to_oplab`. `vehicle`: converted vehicle poses; `stereo`: converted poses
of both cameras; `laser`: text of the laser file (a dive folder was given, L157). -/
def acfrToOplab (vehicle : Option CsvData) (stereo : Option (CsvData × CsvData)) (laser : Option String) :
    List ConvStep :=
  (match vehicle with
    | some v => .guardFiles [["auv_acfr_centre.csv"]] :: csvSteps "auv_acfr_centre.csv" v
    | none => [])
  ++ (match stereo with
    | some (l, r) =>
      .guardFiles [["auv_dr_LC.csv"]] :: csvSteps "auv_acfr_LC" l ++ csvSteps "auv_acfr_RC" r
        ++ (match laser with
          | some t => [.guardFiles [["auv_acfr_laser.csv"]], .write ["auv_acfr_laser.csv"] t]
          | none => [])
    | none => [])

/-- /repo/src/auv_nav/convert.py L208-376 `oplab_to_acfr`, writing vehicle poses, and, if the mission has cameras
(L256-258), stereo poses (L283-286) and the combined RAW file (L318,
/repo/src/auv_nav/parsers/acfr_combined_raw.py L40-64, texts `cfg` and `raw`). -/
def oplabToAcfr (vehicle : String) (stereo : Option (String × String × String)) : List ConvStep :=
  [.guardFiles [["vehicle_pose_est.data"], ["stereo_pose_est.data"]], .mkdir [], .write ["vehicle_pose_est.data"] vehicle]
  ++ (match stereo with
    | some (s, cfg, raw) =>
      [.write ["stereo_pose_est.data"] s, .mkdir ["dRAWLOGS_cv"], .write ["mission.cfg"] cfg,
        .write ["dRAWLOGS_cv", "combined.RAW.auv"] raw]
    | none => [])

/-- /repo/src/auv_nav/convert.py L54-119 `hybis_to_oplab`; `renav` is the name of the result folder (L82-91). The file is
written twice (L117-118). -/
def hybisToOplab (renav text : String) : List ConvStep :=
  [.guardDir [renav], .mkdir [renav], .mkdir [renav, "csv", "dead_reckoning"],
    .write [renav, "csv", "dead_reckoning", "auv_dr_hybis_camera.csv"] text,
    .write [renav, "csv", "dead_reckoning", "auv_dr_hybis_camera.csv"] text]

/-- /repo/src/auv_nav/convert.py L37-51 `koyo20rov_to_oplab` with /repo/src/auv_nav/parsers/koyo20rov.py L546-639
`check_for_outputs` and L1077-1117 of `write_outputs`; an AssertionError is taken as quitting. -/
def koyo20rovToOplab (renav camA camB textA textB textLM : String) : List ConvStep :=
  let dir := [renav, "csv", "dead_reckoning"]
  let pA := dir ++ ["auv_dr_" ++ camA ++ ".csv"]
  let pB := dir ++ ["auv_dr_" ++ camB ++ ".csv"]
  let pL := dir ++ ["auv_dr_LM165_at_dvl.csv"]
  [.mkdir dir, .guardFiles [pA], .guardFiles [pB], .guardFiles [pL], .write pL textLM, .write pA textA, .write pB textB]

/-! ## Worker pool of `auv_nav parse` -/

/-- What a parser function does when it runs in a worker: it returns, raises an exception, or calls `Console.quit`
(`sys.exit`, a SystemExit, which is not an `Exception`). -/
inductive TaskEnd (R : Type) where
  | ret (r : R)
  | exc (e : Err)
  | exit
  deriving DecidableEq

/-- State of the `multiprocessing.pool.ThreadPool` of /repo/src/auv_nav/parse.py L243: tasks not yet started, tasks being
run, and what has been reported for each submitted task. -/
structure Pool (R : Type) where
  queue : List Nat
  running : List Nat
  reported : Nat → Option (Except Err R)

/-- One step of the pool with `w` workers (CPython `multiprocessing.pool.worker`, `_maintain_pool`): an idle worker takes
the next task; a task that returns or raises an exception is reported; a SystemExit ends the worker without a report, and
the worker is replaced. `tasks i` is what the i-th submitted parser does. -/
inductive PoolStep {R : Type} (w : Nat) (tasks : Nat → TaskEnd R) : Pool R → Pool R → Prop where
  | start (i : Nat) (q run : List Nat) (rep) : run.length < w → PoolStep w tasks ⟨i :: q, run, rep⟩ ⟨q, i :: run, rep⟩
  | finish (i : Nat) (r : R) (q run : List Nat) (rep) : i ∈ run → tasks i = .ret r →
      PoolStep w tasks ⟨q, run, rep⟩ ⟨q, run.erase i, fun j => if j = i then some (.ok r) else rep j⟩
  | fail (i : Nat) (e : Err) (q run : List Nat) (rep) : i ∈ run → tasks i = .exc e →
      PoolStep w tasks ⟨q, run, rep⟩ ⟨q, run.erase i, fun j => if j = i then some (.error e) else rep j⟩
  | die (i : Nat) (q run : List Nat) (rep) : i ∈ run → tasks i = .exit →
      PoolStep w tasks ⟨q, run, rep⟩ ⟨q, run.erase i, rep⟩

/-- Schedules of the pool, with the number of steps taken. -/
inductive PoolRun {R : Type} (w : Nat) (tasks : Nat → TaskEnd R) : Pool R → Nat → Pool R → Prop where
  | refl (s) : PoolRun w tasks s 0 s
  | step {s t u : Pool R} {n : Nat} : PoolStep w tasks s t → PoolRun w tasks t n u → PoolRun w tasks s (n + 1) u

/-- parse.py L254-645: `n` parsers submitted in order. -/
def poolInit (R : Type) (n : Nat) : Pool R := ⟨List.range n, [], fun _ => none⟩

/-- parse.py L658 `pool.join()` returns once every submitted task has been reported (CPython `_handle_workers`: the
handler ends when the cache of unreported tasks is empty). -/
def joinReturns {R : Type} (n : Nat) (s : Pool R) : Prop := ∀ i < n, (s.reported i).isSome

/-- parse.py L686-762 without the corrections: `i.get()` for the submitted tasks in order (an exception is raised again),
skipping empty results. -/
def collectPool {A : Type} (s : Pool (List A)) : List Nat → Res (List A)
  | [] => .ok []
  | i :: is =>
    match s.reported i with
    | some (.ok r) => do
      let rest ← collectPool s is
      .ok (r ++ rest)
    | some (.error e) => .error e
    | none => .error .attributeError

/-! ## Time stamps of GAPS fixes -/

/-- Date and time fields of a `$PTSAG` telegram; `none`: Python's `int` rejects the text. -/
structure GapsTime where
  date : Option (Nat × Nat × Nat)
  hour : Option Nat
  mins : Option Nat
  secs : Option Nat
  msec : Option Nat
  deriving DecidableEq

/-- A line of a GAPS log with its time fields. -/
inductive GapsTLine where
  | ship (t : GapsTime)
  | target (valid : Bool) (t : GapsTime)
  | heading
  | other
  deriving DecidableEq

/-- The line without its time. (the header of a line, parse_gaps.py L81-303) -/
def GapsTLine.kind : GapsTLine → GapsLine
  | .ship _ => .ship
  | .target v _ => .target v true
  | .heading => .heading
  | .other => .other

/-- The variables `hour`, `mins`, `secs`, `msec`, kept from line to line; `none`: not yet assigned. -/
structure GapsRegs where
  hour : Option Nat := none
  mins : Option Nat := none
  secs : Option Nat := none
  msec : Option Nat := none
  deriving DecidableEq

/-- /repo/src/auv_nav/parsers/parse_gaps.py L96-103: the four assignments in a `try`; the first text that is no number
ends them, the other variables keep their values. -/
def GapsRegs.read (r : GapsRegs) (t : GapsTime) : GapsRegs :=
  match t.hour with
  | none => r
  | some h => match t.mins with
    | none => { r with hour := some h }
    | some m => match t.secs with
      | none => { r with hour := some h, mins := some m }
      | some s => match t.msec with
        | none => { r with hour := some h, mins := some m, secs := some s }
        | some ms => ⟨some h, some m, some s, some ms⟩

/-- parse_gaps.py L105-127 (L181-204 for ship telegrams): out-of-range values are carried once and set to 0 (the
variables as well), the date is converted to a time. `tz`: hours, `off`: `timeoffset_s`. -/
def gapsEpoch (tz off : ℚ) (date : Nat × Nat × Nat) (r : GapsRegs) : Res (GapsRegs × ℚ) :=
  match r.hour, r.mins, r.secs with
  | some h, some m, some s =>
    let (m, s) := if 60 ≤ s then (m + 1, 0) else (m, s)
    let (h, m) := if 60 ≤ m then (h + 1, 0) else (h, m)
    let (dd, h) := if 24 ≤ h then (date.2.2 + 1, 0) else (date.2.2, h)
    match dateTimeToEpoch ⟨date.1, date.2.1, dd, h, m, s, 0⟩ tz, r.msec with
    | .ok e, some ms => .ok (⟨some h, some m, some s, some ms⟩, e + ms / 1000 + off)
    | .error e, _ => .error e
    | .ok _, none => .error .unboundLocal
  | _, _, _ => .error .unboundLocal

/-- parse_gaps.py L163-204: a ship telegram before the fix: only the milliseconds are read in a `try`. -/
def gapsShipPrior (tz off : ℚ) (r : GapsRegs) (t : GapsTime) : Res (GapsRegs × ℚ) :=
  match t.date, t.hour, t.mins, t.secs with
  | some d, some h, some m, some s =>
    gapsEpoch tz off d ⟨some h, some m, some s, match t.msec with | some x => some x | none => r.msec⟩
  | _, _, _, _ => .error .valueError

/-- parse_gaps.py L233-260: a ship telegram after the target: nothing is caught or carried. -/
def gapsShipPost (tz off : ℚ) (t : GapsTime) : Res (GapsRegs × ℚ) :=
  match t.date, t.hour, t.mins, t.secs, t.msec with
  | some d, some h, some m, some s, some ms =>
    match dateTimeToEpoch ⟨d.1, d.2.1, d.2.2, h, m, s, 0⟩ tz with
    | .ok e => .ok (⟨some h, some m, some s, some ms⟩, e + ms / 1000 + off)
    | .error e => .error e
  | _, _, _, _, _ => .error .valueError

/-- The parser's variables: those of `GapsState`, the time registers and the three time stamps. -/
structure GapsTState where
  base : GapsState := {}
  regs : GapsRegs := {}
  tTarget : Option ℚ := none
  tPrior : Option ℚ := none
  tPost : Option ℚ := none

/-- parse_gaps.py L76-303: the effect of a line on time registers and time stamps, together with `gapsRead`. Errors in
the position fields of a telegram are not modelled here. -/
def gapsTRead (tz off : ℚ) (s : GapsTState) (i : Nat) (l : GapsTLine) : Res GapsTState := do
  let base := gapsRead s.base i l.kind
  match l with
  | .target true t =>
    if s.base.flag = 2 then
      match t.date with
      | none => .error .valueError
      | some d =>
        let (r, e) ← gapsEpoch tz off d (s.regs.read t)
        .ok { s with base := base, regs := r, tTarget := some e }
    else .ok { s with base := base }
  | .ship t =>
    if s.base.flag < 3 then
      let (r, e) ← gapsShipPrior tz off s.regs t
      .ok { s with base := base, regs := r, tPrior := some e }
    else
      let (r, e) ← gapsShipPost tz off t
      .ok { s with base := base, regs := r, tPost := some e }
  | _ => .ok { s with base := base }

/-- A USBL fix with the three times used for it. -/
structure GapsTFix where
  fix : GapsFix
  time : ℚ
  prior : ℚ
  post : ℚ

/-- parse_gaps.py L305-469: output of a fix. `broken_packet_flag` is never set on the completing line (see `gapsEmit`).
Equal ship times give a ZeroDivisionError (L307). -/
def gapsTEmit (s : GapsTState) (i : Nat) : Res (GapsTState × List GapsTFix) := do
  let (b, out) ← gapsEmit s.base i
  match out, s.tTarget, s.tPrior, s.tPost with
  | [], _, _, _ => .ok ({ s with base := b }, [])
  | f :: _, some t, some p, some q =>
    if q - p = 0 then .error .zeroDivision else .ok ({ s with base := b }, [⟨f, t, p, q⟩])
  | _ :: _, _, _, _ => .error .unboundLocal

/-- parse_gaps.py L73-469: the loop over the lines of one file. -/
def gapsTRun (tz off : ℚ) (s : GapsTState) (i : Nat) : List GapsTLine → Res (List GapsTFix)
  | [] => .ok []
  | l :: ls => do
    let s1 ← gapsTRead tz off s i l
    let (s2, out) ← gapsTEmit s1 i
    let rest ← gapsTRun tz off s2 (i + 1) ls
    .ok (out ++ rest)

/-- `parse_gaps` on one file, with time zone and time offset. (parse_gaps.py L26-469) -/
def parseGapsT (tz off : ℚ) (ls : List GapsTLine) : Res (List GapsTFix) := gapsTRun tz off {} 0 ls

end Oplab
