import Verif.Spec.EkfStart
import Verif.Props.Rotation

/-! C260: the start of the Kalman filter. -/

namespace Oplab.Props
open Oplab Oplab.Spec Real

private theorem v3 {a b : V3 ℝ} (hx : a.x = b.x) (hy : a.y = b.y) (hz : a.z = b.z) : a = b := by
  cases a; cases b; simp_all

private theorem back (a : ℝ) : a * π / 180 * 180 / π = a := by
  field_simp

/-- **C260**: the filter starts at the pose of dead reckoning: reported for the vehicle's origin, its first state has the
position, depth, attitude and velocity of the first dead reckoned entry. -/
theorem C260_start (m2ll : ℝ → ℝ → ℝ × ℝ) (origin dvl depth : V3 ℝ) (alt : ℝ) (P : KMat) (d : DrStart) :
    let b := savedPose m2ll origin dvl true alt d.t (ekfStart dvl depth d) P
    let c := centrePose origin dvl depth (drPose dvl P d)
    positionOf b = positionOf c ∧ b.t = c.t ∧ b.roll = c.roll ∧ b.pitch = c.pitch ∧ b.yaw = c.yaw ∧ b.vx = c.vx ∧
      b.vy = c.vy ∧ b.vz = c.vz := by
  have e1 : ekfStart dvl depth d Ix.ROLL * 180 / π = d.rpy.x := back _
  have e2 : ekfStart dvl depth d Ix.PITCH * 180 / π = d.rpy.y := back _
  have e3 : ekfStart dvl depth d Ix.YAW * 180 / π = d.rpy.z := back _
  have f1 : ekfStart dvl depth d Ix.X = d.north := rfl
  have f2 : ekfStart dvl depth d Ix.Y = d.east := rfl
  have f3 : ekfStart dvl depth d Ix.Z = ekfStartDepth dvl depth d := rfl
  refine ⟨?_, rfl, e1, e2, e3, rfl, rfl, rfl⟩
  apply v3 <;>
    simp only [positionOf, savedPose, toSynced, if_true, centrePose, drPose, e1, e2, e3, f1, f2, f3, ekfStartDepth, toDvl,
      bodyToInertial] <;> ring

/-- **C260**: the depth that the sensor gives at the start is, for the filter, the depth at which it starts. -/
theorem C260_depth (dvl depth : V3 ℝ) (d : DrStart) (c : EkfStd) (std : ℝ) :
    (fromDepth c ⟨d.t, d.depth, std⟩ d.rpy (toDvl dvl depth)).value Ix.Z = some (ekfStart dvl depth d Ix.Z) := by
  simp [fromDepth, mkMeas]
  rfl

/-- **C260**: a fix of the transponder, at its place on a vehicle whose DVL is at the start, is for the filter the position
at which it starts. -/
theorem C260_fix (dvl depth usbl : V3 ℝ) (d : DrStart) (c : EkfStd) (z ns es : ℝ) :
    let u := mounted d.rpy.x d.rpy.y d.rpy.z dvl usbl ⟨d.north, d.east, ekfStartDepth dvl depth d⟩
    (fromUsbl c ⟨d.t, u.x, u.y, z, ns, es⟩ d.rpy (toDvl dvl usbl)).value Ix.X = some (ekfStart dvl depth d Ix.X) ∧
    (fromUsbl c ⟨d.t, u.x, u.y, z, ns, es⟩ d.rpy (toDvl dvl usbl)).value Ix.Y = some (ekfStart dvl depth d Ix.Y) := by
  unfold mounted
  rw [← C01_is_zyx_rotation]
  have hx : ekfStart dvl depth d Ix.X = d.north := rfl
  have hy : ekfStart dvl depth d Ix.Y = d.east := rfl
  have hne : ¬ (Ix.X = Ix.Y) := by decide
  rw [hx, hy]
  unfold fromUsbl
  constructor <;> simp only [] <;> split <;> simp [mkMeas, hne, add, sub, toDvl, bodyToInertial] <;> ring

/-- **C260**: the compass reading at the start is, for the filter, the attitude at which it starts. -/
theorem C260_compass (dvl depth : V3 ℝ) (d : DrStart) (c : EkfStd) (std : V3 ℝ) (i : Ix)
    (hi : i = Ix.ROLL ∨ i = Ix.PITCH ∨ i = Ix.YAW) :
    (fromOrientation c ⟨d.t, d.rpy, std⟩).value i = some (ekfStart dvl depth d i) := by
  have h1 : ¬ (Ix.ROLL = Ix.PITCH) := by decide
  have h2 : ¬ (Ix.ROLL = Ix.YAW) := by decide
  have h3 : ¬ (Ix.PITCH = Ix.YAW) := by decide
  unfold fromOrientation
  rcases hi with rfl | rfl | rfl <;> split <;> simp [mkMeas, h1, h2, h3] <;> rfl

/-- **C260**, partial: the filter starts with the velocity of the DVL if the vehicle does not turn or if the DVL is at its
centre. -/
theorem C260_velocity_partial (dvl depth : V3 ℝ) (d : DrStart) (c : EkfStd) (std : V3 ℝ) (i : Ix)
    (hi : i = Ix.VX ∨ i = Ix.VY ∨ i = Ix.VZ) (h : d.rates = ⟨0, 0, 0⟩ ∨ dvl = ⟨0, 0, 0⟩) :
    (fromDvl c ⟨d.t, d.raw, std⟩).value i = some (ekfStart dvl depth d i) := by
  have hv : correctLeverArm d.raw d.rates dvl = d.raw := by
    rcases h with h | h <;> rw [h] <;> apply v3 <;> simp [correctLeverArm]
  have h1 : ¬ (Ix.VX = Ix.VY) := by decide
  have h2 : ¬ (Ix.VX = Ix.VZ) := by decide
  have h3 : ¬ (Ix.VY = Ix.VZ) := by decide
  unfold ekfStart
  rw [hv]
  unfold fromDvl
  rcases hi with rfl | rfl | rfl <;> split <;> simp [mkMeas, h1, h2, h3] <;> rfl

/-- Non-vacuity: a vehicle that moves ahead without turning, the DVL one metre ahead of its centre. -/
example : (fromDvl ⟨0, 0, ⟨0, 0, 0⟩, ⟨1, 1, 1⟩, 0, 0, 0, 0⟩ ⟨5, ⟨2, 0, 0⟩, ⟨1, 1, 1⟩⟩).value Ix.VX =
    some (ekfStart ⟨1, 0, 0⟩ ⟨0, 0, 0⟩ ⟨5, 3, 4, 10, ⟨0, 0, 90⟩, ⟨2, 0, 0⟩, ⟨0, 0, 0⟩, 7⟩ Ix.VX) :=
  C260_velocity_partial ⟨1, 0, 0⟩ ⟨0, 0, 0⟩ ⟨5, 3, 4, 10, ⟨0, 0, 90⟩, ⟨2, 0, 0⟩, ⟨0, 0, 0⟩, 7⟩ _ _ _ (Or.inl rfl) (Or.inl rfl)

/-- **C260** fails for the velocity: a vehicle that turns about its centre, with the DVL one metre ahead. -/
theorem C260_velocity_false : ¬ StartVelocity := by
  intro h
  have := h ⟨1, 0, 0⟩ ⟨0, 0, 0⟩ ⟨0, 0, 0, 0, ⟨0, 0, 0⟩, ⟨0, 0, 0⟩, ⟨0, 0, 180⟩, 0⟩
    ⟨0, 0, ⟨0, 0, 0⟩, ⟨1, 1, 1⟩, 0, 0, 0, 0⟩ ⟨0, 0, 0⟩ Ix.VY (Or.inr (Or.inl rfl))
  have e : ekfStart ⟨1, 0, 0⟩ ⟨0, 0, 0⟩ ⟨0, 0, 0, 0, ⟨0, 0, 0⟩, ⟨0, 0, 0⟩, ⟨0, 0, 180⟩, 0⟩ Ix.VY = π := by
    have e1 : ekfStart ⟨1, 0, 0⟩ ⟨0, 0, 0⟩ ⟨0, 0, 0, 0, ⟨0, 0, 0⟩, ⟨0, 0, 0⟩, ⟨0, 0, 180⟩, 0⟩ Ix.VY =
      (0 : ℝ) + (-(0 * degToRad) * 0 + 180 * degToRad * 1) := rfl
    rw [e1, degToRad]
    field_simp
    ring
  rw [e] at this
  have h1 : ¬ (Ix.VX = Ix.VY) := by decide
  simp [fromDvl, mkMeas, h1] at this
  exact pi_ne_zero this.symm

end Oplab.Props
