import Verif.Model.NavHistory
import Mathlib.Data.Nat.Notation

/-! # What is asked of corrections after several processing runs -/

namespace Oplab.Spec

/-- The listing of the processed folder has the folders of the runs, and no other whose name starts alike. -/
def ListsFolders (s : NavTables) (listing : List (List Char)) : Prop := ∀ f, f ∈ listing.filter jsonNamed ↔ f ∈ s.folders

/-- The run goes to its end. -/
def RunEnds (r : NavRun) : Prop := ∀ t, r.finished t = true

/-- The run is not for relative uncertainties, is asked for the positions of the camera, by dead reckoning or the filter, has poses, and its folder has the name of results. -/
def LocatesCamera (r : NavRun) (camera : String) : Prop :=
  r.relative = false ∧ jsonNamed r.folder = true ∧ r.csv = true ∧ ∃ c ∈ r.cameras, c.name = camera ∧ 1 < c.drPoses ∧ c.drWanted = true

/-- `correct_images` uses the positions that the last run computed, if that was asked for them and went to its end. -/
def UsesLastRun : Prop :=
  ∀ (before : List NavRun) (r : NavRun) (listing : List (List Char)) (camera : String),
    RunEnds r → LocatesCamera r camera → navRefused (navRuns noTables 0 before) r = false →
    ListsFolders (navRuns noTables 0 (before ++ [r])) listing →
      navUsed (navRuns noTables 0 (before ++ [r])) listing none camera = .ok (some before.length)

/-- The same when all runs are for the same window. -/
def UsesLastRunOfWindow : Prop :=
  ∀ (before : List NavRun) (r : NavRun) (listing : List (List Char)) (camera : String),
    RunEnds r → LocatesCamera r camera → navRefused (navRuns noTables 0 before) r = false → (∀ b ∈ before, b.folder = r.folder) →
    ListsFolders (navRuns noTables 0 (before ++ [r])) listing →
      navUsed (navRuns noTables 0 (before ++ [r])) listing none camera = .ok (some before.length)

/-- The same when all runs use the filter and have it write the camera. -/
def UsesLastRunOfFilter : Prop :=
  ∀ (before : List NavRun) (r : NavRun) (listing : List (List Char)) (camera : String),
    (∀ b ∈ before ++ [r], RunEnds b ∧ LocatesCamera b camera ∧ b.ekf = true ∧ ∀ c ∈ b.cameras, 1 < c.ekfPoses ∧ c.ekfWanted = true) →
    navRefused (navRuns noTables 0 before) r = false → ListsFolders (navRuns noTables 0 (before ++ [r])) listing →
      navUsed (navRuns noTables 0 (before ++ [r])) listing none camera = .ok (some before.length)

/-- The positions of all cameras come from one run. -/
def CamerasOfOneRun : Prop :=
  ∀ (runs : List NavRun) (listing : List (List Char)) (a b : String) (i j : ℕ), ListsFolders (navRuns noTables 0 runs) listing →
    navUsed (navRuns noTables 0 runs) listing none a = .ok (some i) → navUsed (navRuns noTables 0 runs) listing none b = .ok (some j) → i = j

/-- If a run is killed and the same command is given again, the tables of that run are all there. -/
def RepeatCompletes : Prop :=
  ∀ (before : List NavRun) (r : NavRun) (stopped : NavTable → Bool) (t : NavTable), RunEnds r → navRefused (navRuns noTables 0 before) r = false →
    (navRuns noTables 0 (before ++ [r])).written t = some before.length →
      ((navRuns noTables 0 (before ++ [{ r with finished := stopped }] ++ [r])).written t).isSome = true

/-- Computing relative uncertainties does not change which positions are used; the listings differ at most by the folder of that run. -/
def RelativeHarmless : Prop :=
  ∀ (before : List NavRun) (r : NavRun) (listing : List (List Char)) (camera : String) (i : ℕ), r.relative = true →
    ListsFolders (navRuns noTables 0 (before ++ [r])) listing →
    navUsed (navRuns noTables 0 before) (listing.filter fun f => (navRuns noTables 0 before).folders.contains f) none camera = .ok (some i) →
      navUsed (navRuns noTables 0 (before ++ [r])) listing none camera = .ok (some i)

/-- The run with number `i` is not refused: it is forced, for relative uncertainties, or no earlier one was for its window. -/
def Accepted (runs : List NavRun) (i : ℕ) : Prop :=
  ∃ r, runs[i]? = some r ∧ (r.force = true ∨ r.relative = true ∨ ∀ (j : ℕ) (b : NavRun), j < i → runs[j]? = some b → b.folder ≠ r.folder)

/-- The run has written the table when it ends or is killed. -/
def WritesTable (r : NavRun) (t : NavTable) : Prop :=
  r.relative = false ∧ r.csv = true ∧ r.folder = t.folder ∧ r.finished t = true ∧ ∃ c ∈ r.cameras, c.name = t.camera ∧ 0 < c.drPoses ∧
    ((t.filter = true ∧ r.ekf = true ∧ c.ekfWanted = true ∧ 1 < c.ekfPoses) ∨ (t.filter = false ∧ c.drWanted = true ∧ 1 < c.drPoses))

end Oplab.Spec
