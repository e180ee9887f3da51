import Verif.Model.DivePlaces

/-! Where devices sit on a vehicle, by docs/file_format_definitions.md of the program. -/

namespace Oplab.Spec
open Oplab

/-- An offset is the one that a node of vehicle.yaml in the present format gives. -/
def GivenBy (n : Node) (s : SensorOffset) : Prop :=
  n.lookup "surge_m" = some s.surge ∧ n.lookup "sway_m" = some s.sway ∧ n.lookup "heave_m" = some s.heave ∧
    n.lookup "roll_deg" = some s.roll ∧ n.lookup "pitch_deg" = some s.pitch ∧ n.lookup "yaw_deg" = some s.yaw

/-- A node in the present format. -/
def PresentFormat (n : Node) : Prop := (n.lookup "surge_m").isSome = true

/-- A standard node of mission.yaml: its key, the frame it has if its `origin` is not given, and where the vehicle keeps it. -/
structure Device where
  key : String
  frame : String
  place : VehicleData → Option SensorOffset

/-- The standard nodes with a place. -/
def devices : List Device :=
  [⟨"velocity", "dvl", (·.dvl)⟩, ⟨"orientation", "ins", (·.ins)⟩, ⟨"depth", "depth", (·.depth)⟩, ⟨"altitude", "dvl", (·.dvl)⟩,
    ⟨"usbl", "usbl", (·.usbl)⟩]

/-- The frame of a standard node: its `origin`, or the default. -/
def frameOf (n : Node) (d : Device) : Y := (n.lookup "origin").getD (.str d.frame)

/-- A device sits where the node says that its `origin` names. -/
def Sits (d : Device) : Prop :=
  ∀ toFloat mission vehicle m v n frame p, diveLoad toFloat mission vehicle = .ok (m, v) → mission.lookup d.key = some (.dict n) →
    frameOf n d = .str frame → vehicle.lookup frame = some (.dict p) → PresentFormat p →
    ∃ s, d.place v = some s ∧ GivenBy p s

/-- The offset of a camera, by its place in the list. -/
def cameraPlace (v : VehicleData) : Nat → Option SensorOffset
  | 0 => v.camera1
  | 1 => v.camera2
  | 2 => v.camera3
  | _ => none

/-- The frame of a camera: its `origin`, or its name. -/
def cameraFrame (n : Node) : Y := (n.lookup "origin").getD (n.getD "name" .null)

/-- The list of cameras in mission.yaml, of version 1 or later. -/
def ListsCameras (mission : Node) (l : List Node) : Prop :=
  (∃ v : ℚ, mission.lookup "version" = some (.num v) ∧ 1 ≤ v) ∧
    ∃ i, mission.lookup "image" = some (.dict i) ∧ i.lookup "cameras" = some (.list (l.map .dict))

/-- The first three cameras sit where the nodes say that their `origin`, or else their name, names. -/
def CamerasSit : Prop :=
  ∀ toFloat mission vehicle m v l k n frame p, diveLoad toFloat mission vehicle = .ok (m, v) → ListsCameras mission l →
    k < 3 → l[k]? = some n → cameraFrame n = .str frame → vehicle.lookup frame = some (.dict p) → PresentFormat p →
    ∃ s, cameraPlace v k = some s ∧ GivenBy p s

/-- The `origin` of a camera is optional: if every camera has a frame of the vehicle, the cameras are accepted. -/
def OriginOptional : Prop :=
  ∀ (vehicle : Node) (l : List Node) (i : Node), l ≠ [] → i.lookup "cameras" = some (.list (l.map .dict)) →
    (∀ n ∈ l, ∃ path name frame, n.lookup "path" = some path ∧ n.lookup "name" = some (.str name) ∧ cameraFrame n = .str frame ∧
      (vehicle.lookup frame).isSome = true) →
    ∃ cams, camerasNew i = .ok cams ∧ camerasKnown vehicle cams = .ok ()

/-- The beginning of the mission.yaml in docs/auv_nav.md. -/
def manualMission : Node :=
  [("version", .num 2),
   ("origin", .dict [("latitude", .num (22745 / 1000)), ("longitude", .num (153266667 / 1000000)), ("coordinate_reference_system", .str "wgs84")]),
   ("velocity", .dict [("format", .str "ae2000"), ("filepath", .str "nav/ae_log/"), ("filename", .str "pos171123064542.csv"),
     ("timezone", .str "jst"), ("timeoffset", .num 0), ("std_factor", .num (1 / 100)), ("std_offset", .num 0)])]

/-- The vehicle of the manual, as far as this part needs it. -/
def manualVehicle : Node :=
  [("dvl", .dict [("surge_m", .num (-780625 / 1000000)), ("sway_m", .num 0), ("heave_m", .num (204 / 1000)), ("roll_deg", .num 0),
    ("pitch_deg", .num 0), ("yaw_deg", .num 0)])]

/-- The example of the manual can be read. -/
def ReadsManual : Prop := ∃ r, diveLoad (fun _ => none) manualMission manualVehicle = .ok r

end Oplab.Spec
