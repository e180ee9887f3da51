import Verif.Model.EkfPose
import Verif.Spec.Geometry

/-!
# Sensors on a vehicle

Sensors have fixed places on the vehicle.  The vehicle turns by roll, pitch and heading.
-/

namespace Oplab.Spec
open Oplab Real

/-- Position of a pose: north, east, down. -/
def positionOf (b : FilterPose) : V3 ℝ := ⟨b.northings, b.eastings, b.depth⟩

/-- Where a sensor at `place` is if the one at `ref` is at the position `at_`, for angles in degrees. -/
noncomputable def mounted (roll pitch yaw : ℝ) (ref place at_ : V3 ℝ) : V3 ℝ :=
  add at_ (rotZ (rad yaw) (rotY (rad pitch) (rotX (rad roll) (sub place ref))))

/-- Depth of the seafloor below a pose. -/
def seafloor (b : FilterPose) : ℝ := b.depth + b.altitude

/-- Angles of a state of the filter in degrees. -/
noncomputable def degrees (a : ℝ) : ℝ := a * 180 / π

/-- Full property: with the altitude measured by the DVL, the seafloor below the camera is at the depth of the seafloor below
the DVL. -/
def EkfSeafloor : Prop :=
  ∀ (m2ll : ℝ → ℝ → ℝ × ℝ) (origin dvl camera : V3 ℝ) (alt t : ℝ) (s : KVec) (P : KMat),
    seafloor (cameraPose m2ll origin camera (savedPose m2ll origin dvl true alt t s P)) = s Ix.Z + alt

/-- Full property: latitude and longitude of a camera are those of its position. -/
def CameraLatLon : Prop :=
  ∀ (m2ll : ℝ → ℝ → ℝ × ℝ) (origin camera : V3 ℝ) (b : FilterPose),
    (cameraPose m2ll origin camera b).latlon =
      m2ll (cameraPose m2ll origin camera b).eastings (cameraPose m2ll origin camera b).northings

/-- Full property: the particle filter's pose of the vehicle is its place on the vehicle, in all three directions, given the
depth of the DVL. -/
def PfCentre : Prop :=
  ∀ (m2ll : ℝ → ℝ → ℝ × ℝ) (origin dvl : V3 ℝ) (b : FilterPose),
    positionOf (pfCentrePose m2ll origin dvl b) = mounted b.roll b.pitch b.yaw dvl origin (positionOf b)

end Oplab.Spec
