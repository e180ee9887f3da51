import Verif.Model.ProcessRun

/-! Vocabulary for the properties of a run of `auv_nav process`. -/

namespace Oplab.Spec

/-- The file on the disk: folder, name without extension, whether it is a sidescan file (`.txt`). -/
def fileOf (r : FileReq) : Estimate × List Char × Bool := (r.folder, r.name, r.sss)

/-- `yes` for all csv outputs. -/
def allCsv : CsvFlags := ⟨.bool true, .bool true, .bool true, .bool true, .bool true, .bool true, .bool true, .bool true, .bool true, .bool true,
  .bool true, .bool true, .bool true, .bool true, .bool true, .bool true, .bool true, .bool true⟩

/-- The section `csv_output` of the settings with everything switched on. -/
def csvSection : Node :=
  let cams : Node := [("auv_centre", .bool true), ("auv_dvl", .bool true), ("camera_1", .bool true), ("camera_2", .bool true), ("camera_3", .bool true)]
  [("activate", .bool true), ("usbl", .bool true), ("dead_reckoning", .dict cams), ("particle_filter", .dict cams), ("ekf", .dict cams)]

end Oplab.Spec
