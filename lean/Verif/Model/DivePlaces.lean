import Verif.Model.Config

/-!
Model of reading mission.yaml and vehicle.yaml together: `Vehicle(filename)` of `/repo/src/oplab/vehicle.py` L84-211, which reads the mission
beside the file first (L107-109) and takes the cameras from it (L132-192).
-/

namespace Oplab

/-- The cameras of a mission: none without images. (mission.py L179-181, vehicle.py L132) -/
def missionCameras (m : MissionData) : List CamEntry :=
  match m.image with
  | none => []
  | some i => i.cameras

/-- vehicle.py L84-211: the mission and the vehicle of a dive. -/
def diveLoad (toFloat : String → Option ℚ) (mission vehicle : Node) : Res (MissionData × VehicleData) := do
  let m ← missionLoad toFloat mission vehicle
  let v ← vehicleLoad vehicle mission (missionCameras m)
  .ok (m, v)

end Oplab
