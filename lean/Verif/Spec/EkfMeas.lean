import Verif.Model.Ekf
import Verif.Spec.Geometry

/-!
# What a sensor tells the filter

A reading gives values and variances of some components of the state at one time.
-/

namespace Oplab.Spec
open Oplab Real

/-- One component of the state with its measured value and variance. -/
structure Component where
  ix : Ix
  value : ℝ
  variance : ℝ

/-- A measurement tells the filter exactly the components `l`, with independent errors, at time `t`; it is reported
under `name`. -/
def Feeds (m : KMeas) (name : String) (t : ℝ) (l : List Component) : Prop :=
  m.type = name ∧ m.time = t ∧ (∀ k ∈ l, m.value k.ix = some k.value ∧ m.cov k.ix k.ix = k.variance) ∧
    (∀ i, m.upd i = true ↔ ∃ k ∈ l, k.ix = i) ∧ ∀ i j, i ≠ j → m.cov i j = 0

/-- Position of a point of the vehicle that is at `arm` (in the vehicle's axes) from the point at `p`. -/
noncomputable def pointAt (rpyDeg p arm : V3 ℝ) : V3 ℝ :=
  add p (rotZ (rad rpyDeg.z) (rotY (rad rpyDeg.y) (rotX (rad rpyDeg.x) arm)))

/-- The square of the sensor's own standard deviation if it gives one, or else of the one of the settings. -/
noncomputable def ownOr (own model : ℝ) : ℝ := if 0 < own then own ^ 2 else model ^ 2

/-- Settings that are not negative. -/
def StdSettingsOk (c : EkfStd) : Prop :=
  0 ≤ c.factorZ ∧ 0 ≤ c.offsetZ ∧ (0 ≤ c.factorV.x ∧ 0 ≤ c.factorV.y ∧ 0 ≤ c.factorV.z) ∧
    (0 ≤ c.offsetV.x ∧ 0 ≤ c.offsetV.y ∧ 0 ≤ c.offsetV.z) ∧ 0 ≤ c.factorXY ∧ 0 ≤ c.offsetXY ∧ 0 ≤ c.factorO ∧ 0 ≤ c.offsetO

/-- Full property: the standard deviation from the settings is never smaller than the offset. -/
def OffsetKept : Prop :=
  ∀ c : EkfStd, StdSettingsOk c →
    (∀ (v : KDepth) r a, v.std ≤ 0 → c.offsetZ ^ 2 ≤ (fromDepth c v r a).cov Ix.Z Ix.Z) ∧
    (∀ v : KDvl, v.std.x ≤ 0 → c.offsetV.x ^ 2 ≤ (fromDvl c v).cov Ix.VX Ix.VX ∧
      c.offsetV.y ^ 2 ≤ (fromDvl c v).cov Ix.VY Ix.VY ∧ c.offsetV.z ^ 2 ≤ (fromDvl c v).cov Ix.VZ Ix.VZ) ∧
    (∀ (v : KUsbl) r a, v.northStd ≤ 0 → c.offsetXY ^ 2 ≤ (fromUsbl c v r a).cov Ix.X Ix.X ∧
      c.offsetXY ^ 2 ≤ (fromUsbl c v r a).cov Ix.Y Ix.Y) ∧
    (∀ v : KOrient, v.std.x ≤ 0 → rad c.offsetO ^ 2 ≤ (fromOrientation c v).cov Ix.ROLL Ix.ROLL ∧
      rad c.offsetO ^ 2 ≤ (fromOrientation c v).cov Ix.PITCH Ix.PITCH ∧
      rad c.offsetO ^ 2 ≤ (fromOrientation c v).cov Ix.YAW Ix.YAW)

/-- Full property: a standard deviation that a DVL gives for an axis is the one used for that axis, and the one of the
settings is used for the other axes. -/
def OwnKept : Prop :=
  ∀ (c : EkfStd) (v : KDvl),
    (fromDvl c v).cov Ix.VX Ix.VX = ownOr v.std.x (|v.v.x| * c.factorV.x + c.offsetV.x) ∧
    (fromDvl c v).cov Ix.VY Ix.VY = ownOr v.std.y (|v.v.y| * c.factorV.y + c.offsetV.y) ∧
    (fromDvl c v).cov Ix.VZ Ix.VZ = ownOr v.std.z (|v.v.z| * c.factorV.z + c.offsetV.z)

end Oplab.Spec
