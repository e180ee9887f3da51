import Verif.Model.NavChoice

/-! # The tables of poses of a dive over several runs of `auv_nav process`

Models the writing of the tables of poses (/repo/src/auv_nav/process.py L547-580 and L1706-1990, /repo/src/auv_nav/tools/csv_tools.py L45-62) as far
as which run has written which table, for the choice of `correct_images` in `Model/NavChoice`. Runs that
compute relative uncertainties write files of their own, taken not to have the name of a table of poses (L1481-1500). -/

namespace Oplab

/-- The folders `json_renav_…` of a dive and, for each table of poses, the run that wrote it last; `ekfMade` are the folders with a folder `csv/ekf`
(process.py L558-561, L1706-1709). -/
structure NavTables where
  folders : List (List Char)
  ekfMade : List (List Char)
  written : NavTable → Option Nat

/-- What a run writes for a camera: the numbers of poses and the settings of the outputs (process.py L1826-1898). -/
structure CameraOutput where
  name : String
  drPoses : Nat
  drWanted : Bool
  ekfPoses : Nat
  ekfWanted : Bool

/-- A run: the folder that its window names (process.py L547-558), `-F`, the switches `csv_output` and `ekf` (L199-310), whether the
path of the vehicle is written by the filter (L1776-1781), the cameras, which of the writing threads had written their table when the
program ended: all of them unless it is killed, and whether it computes relative uncertainties only (L90). -/
structure NavRun where
  folder : List Char
  force : Bool
  csv : Bool
  ekf : Bool
  ekfCentre : Bool
  cameras : List CameraOutput
  finished : NavTable → Bool
  relative : Bool

/-- csv_tools.py L45-58: a table is written if it is wanted and there is more than one pose; else a table that is there stays. -/
def writesCsv (wanted : Bool) (n : Nat) : Bool := wanted && decide (1 < n)

/-- process.py L1826-1898: the tables that a run writes for its cameras if it is not killed. A camera without poses of dead reckoning has no tables
of the filter either (L1826, L1863). A run for relative uncertainties ends before (L1519). -/
def wantsTable (r : NavRun) (t : NavTable) : Bool :=
  !r.relative && r.csv && decide (t.folder = r.folder) && r.cameras.any fun c =>
    decide (c.name = t.camera) && decide (0 < c.drPoses) &&
      (if t.filter then r.ekf && writesCsv c.ekfWanted c.ekfPoses else writesCsv c.drWanted c.drPoses)

/-- csv_tools.py L51-56: the run makes the folder `csv/ekf`, for the table of some camera or for the path of the vehicle. A run for relative
uncertainties reads a table in this folder before it writes there (process.py L1327-1335), so that it is there. -/
def makesEkf (r : NavRun) : Bool :=
  !r.relative && r.csv && r.ekf && (r.ekfCentre || r.cameras.any fun c => decide (0 < c.drPoses) && writesCsv c.ekfWanted c.ekfPoses && r.finished ⟨r.folder, true, c.name⟩)

/-- process.py L558-580: a run for a window that was processed before ends at once unless it is forced or computes relative uncertainties. -/
def navRefused (s : NavTables) (r : NavRun) : Bool := s.folders.contains r.folder && !r.force && !r.relative

/-- process.py L547-580 and L1706-1990: the run with number `i`. -/
def navRun (s : NavTables) (i : Nat) (r : NavRun) : NavTables :=
  if navRefused s r then s
  else
    { folders := if s.folders.contains r.folder then s.folders else s.folders ++ [r.folder]
      ekfMade := if makesEkf r then s.ekfMade ++ [r.folder] else s.ekfMade
      written := fun t => if wantsTable r t && r.finished t then some i else s.written t }

/-- Runs one after the other, numbered from `i` (process.py L547-580). -/
def navRuns (s : NavTables) (i : Nat) : List NavRun → NavTables
  | [] => s
  | r :: rs => navRuns (navRun s i r) (i + 1) rs

/-- A dive that was not processed (process.py L558). -/
def noTables : NavTables := ⟨[], [], fun _ => none⟩

/-- The folder as /repo/src/correct_images/corrector.py L545-575 finds it; the order of the listing is that of the file system. -/
def NavTables.dir (s : NavTables) (listing : List (List Char)) : NavDir :=
  { listing := listing
    ekfFolder := fun f => s.ekfMade.contains f
    ekf := fun f c => (s.written ⟨f, true, c⟩).isSome
    dr := fun f c => (s.written ⟨f, false, c⟩).isSome }

/-- corrector.py L540-575: the run whose positions of a camera `correct_images` uses. -/
def navUsed (s : NavTables) (listing : List (List Char)) (configured : Option (List Char)) (camera : String) : Res (Option Nat) := do
  let t ← navTable (s.dir listing) configured camera
  .ok (s.written t)

end Oplab
