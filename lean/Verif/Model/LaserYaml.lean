import Verif.Model.LaserRun
import Verif.Model.Config

/-!
Model of the settings of the calibration of the lasers: `LaserCalibrator.__init__` (/repo/src/auv_cal/laser_calibrator.py L594-638), what
`cal` makes of them for the first laser (L1099-1181), and which files are written (/repo/src/auv_cal/calibration.py L231-245).
-/

namespace Oplab

/-- laser_calibrator.py L612-616: `config.get(key, {})`; anything but a mapping fails at the first `get`. -/
def laserSection (config : Node) (key : String) : Res Node :=
  match config.lookup key with
  | none => .ok []
  | some (.dict d) => .ok d
  | some _ => .error .attributeError

/-- The settings of a `LaserCalibrator`, as they are in the file. (laser_calibrator.py L619-638) -/
structure LaserConfig where
  window : Y
  greenness : Y
  columns : Y
  remap : Y
  startRow : Y
  endRow : Y
  startRowB : Y
  endRowB : Y
  twoLasers : Y
  minZ : Y
  maxZ : Y
  bins : Y
  maxPoints : Y
  maxCloud : Y
  threshold : Y
  sampleRatio : Y
  goalRatio : Y
  iterations : Y

/-- laser_calibrator.py L619-638: the settings of the three sections. -/
def laserFields (detection stratify ransac : Node) : LaserConfig where
  window := detection.getD "window_size" (.num 5)
  greenness := detection.getD "min_greenness_ratio" (.num (1 / 100))
  columns := detection.getD "num_columns" (.num 1024)
  remap := detection.getD "remap" (.bool true)
  startRow := detection.getD "start_row" (.num 0)
  endRow := detection.getD "end_row" (.num (-1))
  startRowB := detection.getD "start_row_b" (.num 0)
  endRowB := detection.getD "end_row_b" (.num (-1))
  twoLasers := detection.getD "two_lasers" (.bool false)
  minZ := stratify.getD "min_z_m" (.num 1)
  maxZ := stratify.getD "max_z_m" (.num 20)
  bins := stratify.getD "number_of_bins" (.num 5)
  maxPoints := stratify.getD "max_bin_elements" (.num 300)
  maxCloud := ransac.getD "max_cloud_size" (.num 10000)
  threshold := ransac.getD "min_distance_threshold" (.num (2 / 1000))
  sampleRatio := ransac.getD "sample_size_ratio" (.num (8 / 10))
  goalRatio := ransac.getD "goal_inliers_ratio" (.num (999 / 1000))
  iterations := ransac.getD "max_iterations" (.num 5000)

/-- laser_calibrator.py L607-638: a section `filter` that is not empty ends the program. -/
def laserConfig (config : Node) : Res LaserConfig :=
  match config.getD "filter" .null with
  | .null => do
    let d ← laserSection config "detection"
    let s ← laserSection config "stratify"
    let r ← laserSection config "ransac"
    .ok (laserFields d s r)
  | _ => .error .quit

/-- A value used as a condition. (laser_calibrator.py L752, calibration.py L242) -/
def Y.truth : Y → Bool
  | .null => false
  | .bool b => b
  | .num q => decide (q ≠ 0)
  | .str s => decide (s ≠ "")
  | .list l => !l.isEmpty
  | .dict d => !d.isEmpty

/-- A value used as a number of items (`[None] * n`, laser_calibrator.py L686, L700): a `TypeError` unless it is an integer; a
negative one is taken as 0 (simplification: dividing by it comes first, L685). -/
def Y.asCount (y : Y) : Res ℕ := do
  let q ← y.asNum
  if q.den = 1 then .ok q.num.toNat else .error .typeError

/-- The settings that matter after the detection. (laser_calibrator.py L680-706, L752, L789, L846) -/
noncomputable def laserSettingsOf (c : LaserConfig) (planes : ℕ) : Res LaserSettings := do
  let lo ← c.minZ.asNum
  let hi ← c.maxZ.asNum
  let bins ← c.bins.asCount
  let pts ← c.maxPoints.asCount
  let th ← c.threshold.asNum
  .ok ⟨c.remap.truth, (lo : ℝ), (hi : ℝ), bins, pts, (th : ℝ), planes⟩

/-- laser_calibrator.py L594-638 and L1099-1181: the calibration of the first laser with the settings of a file; `sheet` is `calSheet`
for the images, cameras and random draws of the run. -/
noncomputable def laserFromYaml (sheet : LaserSettings → Res (Option LaserFit)) (config : Node) (planes : ℕ) :
    Res (Option LaserFit) := do
  let c ← laserConfig config
  let s ← laserSettingsOf c planes
  sheet s

/-- calibration.py L236-245: the files that are written for the two lasers, and the exception if there is one: the section
`detection` is looked up again. -/
def laserOutputs (config : Node) : List String × Option Err :=
  match config.lookup "detection" with
  | none => (["laser"], some .keyError)
  | some (.dict d) =>
    match d.lookup "two_lasers" with
    | none => (["laser"], none)
    | some y => if y.truth = true then (["laser", "laser_b"], none) else (["laser"], none)
  | some _ => (["laser"], some .typeError)

end Oplab
