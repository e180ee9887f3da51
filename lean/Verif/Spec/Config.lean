import Verif.Model.Config

/-! Vocabulary for the properties of mission.yaml and vehicle.yaml. -/

namespace Oplab.Spec

/-- A sensor entry with nothing but the settings the mission writer keeps: default topic, USBL field and
filters, mounted at its default frame. -/
structure PlainSensor (s : SensorEntry) (frame : String) : Prop where
  topic : s.topic = .null
  fieldId : s.fieldId = .num 0
  depthFilter : s.depthFilter = .bool true
  northEastFilter : s.northEastFilter = .bool true
  origin : s.origin = some (.str frame)

/-- The same for tide and dead reckoning, which have no frame. -/
structure PlainFile (s : SensorEntry) : Prop where
  topic : s.topic = .null
  fieldId : s.fieldId = .num 0
  depthFilter : s.depthFilter = .bool true
  northEastFilter : s.northEastFilter = .bool true
  origin : s.origin = none

/-- A camera entry with a text name, mounted at a frame of vehicle.yaml, without topic and `timeoffset_s`. -/
def PlainCamera (vehicle : Node) (c : CamEntry) : Prop :=
  (∃ n, c.name = .str n) ∧ (∃ o, c.origin = .str o ∧ (vehicle.lookup o).isSome) ∧
    c.topic = .null ∧ c.timeoffsetS = .null

/-- A mission whose dictionary form loses nothing. -/
structure PlainMission (vehicle : Node) (m : MissionData) : Prop where
  version : m.version = .num 1
  velocity : ∀ s, m.velocity = some s → PlainSensor s "dvl" ∧ (vehicle.lookup "dvl").isSome
  orientation : ∀ s, m.orientation = some s → PlainSensor s "ins" ∧ (vehicle.lookup "ins").isSome
  depth : ∀ s, m.depth = some s → PlainSensor s "depth" ∧ (vehicle.lookup "depth").isSome
  altitude : ∀ s, m.altitude = some s → PlainSensor s "dvl" ∧ (vehicle.lookup "dvl").isSome
  usbl : ∀ s, m.usbl = some s → PlainSensor s "usbl" ∧ (vehicle.lookup "usbl").isSome
  tide : ∀ s, m.tide = some s → PlainFile s
  deadReckoning : ∀ s, m.deadReckoning = some s → PlainFile s
  image : ∀ i, m.image = some i → i.cameras ≠ [] ∧ ∀ c ∈ i.cameras, PlainCamera vehicle c
  payloads : m.payloads = []

end Oplab.Spec
