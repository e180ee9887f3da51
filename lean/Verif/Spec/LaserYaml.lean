import Verif.Model.LaserYaml

/-! The settings of the calibration of the lasers in calibration.yaml. -/

namespace Oplab.Spec
open Oplab

/-- A setting of the section `laser_calibration`: its section and key in the file that comes with the program
(/repo/src/auv_cal/default_yaml/default_calibration.yaml L34-58), its value if it is not given, and where it ends up. -/
structure Setting where
  part : String
  key : String
  default : Y
  place : LaserConfig → Y

/-- The settings of the file that comes with the program, without the number of points in a bin. -/
def laserSettingsTable : List Setting :=
  [⟨"detection", "window_size", .num 5, (·.window)⟩, ⟨"detection", "min_greenness_ratio", .num (1 / 100), (·.greenness)⟩,
   ⟨"detection", "num_columns", .num 1024, (·.columns)⟩, ⟨"detection", "remap", .bool true, (·.remap)⟩,
   ⟨"detection", "start_row", .num 0, (·.startRow)⟩, ⟨"detection", "end_row", .num (-1), (·.endRow)⟩,
   ⟨"detection", "start_row_b", .num 0, (·.startRowB)⟩, ⟨"detection", "end_row_b", .num (-1), (·.endRowB)⟩,
   ⟨"detection", "two_lasers", .bool false, (·.twoLasers)⟩, ⟨"stratify", "min_z_m", .num 1, (·.minZ)⟩,
   ⟨"stratify", "max_z_m", .num 20, (·.maxZ)⟩, ⟨"stratify", "number_of_bins", .num 5, (·.bins)⟩,
   ⟨"ransac", "max_cloud_size", .num 10000, (·.maxCloud)⟩, ⟨"ransac", "min_distance_threshold", .num (2 / 1000), (·.threshold)⟩,
   ⟨"ransac", "sample_size_ratio", .num (8 / 10), (·.sampleRatio)⟩, ⟨"ransac", "goal_inliers_ratio", .num (999 / 1000), (·.goalRatio)⟩,
   ⟨"ransac", "max_iterations", .num 5000, (·.iterations)⟩]

/-- The number of points in a bin, as the file that comes with the program calls it. -/
def pointsPerBin : Setting := ⟨"stratify", "max_points_per_bin", .num 300, (·.maxPoints)⟩

/-- The value of a key of a section. -/
def valueIn (config : Node) (part key : String) : Option Y :=
  match config.lookup part with
  | some (.dict d) => d.lookup key
  | _ => none

/-- A setting is what the file says, or its default. -/
def Taken (s : Setting) : Prop :=
  ∀ config c, laserConfig config = .ok c → s.place c = (valueIn config s.part s.key).getD s.default

/-- Two files agree about a setting. -/
def SameIn (config config' : Node) (part key : String) : Prop := valueIn config part key = valueIn config' part key

/-- Both lasers are written when two are asked for, the first one in any case, and nothing else happens. -/
def WritesLasers : Prop :=
  ∀ config c, laserConfig config = .ok c →
    laserOutputs config = (if c.twoLasers.truth = true then ["laser", "laser_b"] else ["laser"], none)

/-- A value that Python takes as false: nothing, `false`, zero, or an empty text, list or mapping. -/
inductive CountsAsFalse : Y → Prop where
  | null : CountsAsFalse .null
  | false : CountsAsFalse (.bool false)
  | zero : CountsAsFalse (.num 0)
  | text : CountsAsFalse (.str "")
  | list : CountsAsFalse (.list [])
  | dict : CountsAsFalse (.dict [])

end Oplab.Spec
