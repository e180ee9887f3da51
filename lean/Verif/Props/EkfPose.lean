import Verif.Spec.EkfPose
import Verif.Spec.Covariance
import Verif.Props.Rotation

/-!
C207: poses of vehicle and cameras from the states of the filters.
-/

namespace Oplab.Props
open Oplab Oplab.Spec Real

private theorem v3 {a b : V3 ℝ} (hx : a.x = b.x) (hy : a.y = b.y) (hz : a.z = b.z) : a = b := by
  cases a; cases b; simp_all

/-- C207: a camera pose from the filter has the position at which the camera is on the vehicle whose DVL is where the filter
says, and its attitude. -/
theorem C207_camera (m2ll : ℝ → ℝ → ℝ × ℝ) (origin dvl camera : V3 ℝ) (alt t : ℝ) (s : KVec) (P : KMat) :
    let c := cameraPose m2ll origin camera (savedPose m2ll origin dvl true alt t s P)
    positionOf c = mounted (degrees (s Ix.ROLL)) (degrees (s Ix.PITCH)) (degrees (s Ix.YAW)) dvl camera ⟨s Ix.X, s Ix.Y, s Ix.Z⟩ ∧
      c.roll = degrees (s Ix.ROLL) ∧ c.pitch = degrees (s Ix.PITCH) ∧ c.yaw = degrees (s Ix.YAW) ∧ c.t = t := by
  refine ⟨?_, rfl, rfl, rfl, rfl⟩
  unfold mounted
  rw [← C01_is_zyx_rotation]
  apply v3 <;> simp only [positionOf, cameraPose, savedPose, toSynced, if_true, degrees, add, sub, bodyToInertial] <;> ring

/-- C207: without a shift and without offsets, the pose is that of the DVL. -/
theorem C207_dvl (m2ll : ℝ → ℝ → ℝ × ℝ) (origin dvl : V3 ℝ) (alt t : ℝ) (s : KVec) (P : KMat) :
    let c := cameraPose m2ll ⟨0, 0, 0⟩ ⟨0, 0, 0⟩ (savedPose m2ll origin dvl false alt t s P)
    positionOf c = ⟨s Ix.X, s Ix.Y, s Ix.Z⟩ ∧ seafloor c = s Ix.Z + alt ∧ c.latlon = m2ll c.eastings c.northings := by
  refine ⟨?_, ?_, ?_⟩
  · apply v3 <;> simp [positionOf, cameraPose, savedPose, toSynced, bodyToInertial]
  · simp [seafloor, cameraPose, savedPose, toSynced, bodyToInertial]
  · simp [cameraPose, savedPose, toSynced, bodyToInertial]

/-- C207: for dead reckoning the seafloor below any camera is where the depth sensor and the DVL measure it, and positions
are those on the vehicle. -/
theorem C207_dead_reckoning (m2ll : ℝ → ℝ → ℝ × ℝ) (origin dvl depth camera : V3 ℝ) (b : FilterPose) :
    let c := cameraPose m2ll origin camera (centrePose origin dvl depth b)
    let atDvl := (mounted b.roll b.pitch b.yaw depth dvl ⟨0, 0, b.depth⟩).z
    seafloor c = atDvl + b.altitude ∧
      positionOf c = mounted b.roll b.pitch b.yaw dvl camera ⟨b.northings, b.eastings, atDvl⟩ := by
  unfold mounted
  simp only [← C01_is_zyx_rotation]
  refine ⟨?_, ?_⟩
  · simp only [seafloor, cameraPose, centrePose, add, sub, bodyToInertial]
    ring
  · apply v3 <;> simp only [positionOf, cameraPose, centrePose, add, sub, bodyToInertial] <;> ring

/-- C207: with the filter the seafloor is right exactly if the DVL and the origin of the vehicle are at the same depth. -/
theorem C207_seafloor_partial (m2ll : ℝ → ℝ → ℝ × ℝ) (origin dvl camera : V3 ℝ) (alt t : ℝ) (s : KVec) (P : KMat) :
    seafloor (cameraPose m2ll origin camera (savedPose m2ll origin dvl true alt t s P)) = s Ix.Z + alt ↔
      (mounted (degrees (s Ix.ROLL)) (degrees (s Ix.PITCH)) (degrees (s Ix.YAW)) dvl origin ⟨s Ix.X, s Ix.Y, s Ix.Z⟩).z = s Ix.Z := by
  unfold mounted
  rw [← C01_is_zyx_rotation]
  simp only [seafloor, cameraPose, savedPose, toSynced, if_true, degrees, add, sub, bodyToInertial]
  constructor <;> intro h <;> linarith

/-- C207: not in general: the DVL two metres below the origin. -/
theorem C207_seafloor_false : ¬ EkfSeafloor := by
  intro h
  have := h (fun _ _ => (0, 0)) ⟨0, 0, 0⟩ ⟨0, 0, 2⟩ ⟨0, 0, 0⟩ 5 0 0 0
  norm_num [seafloor, cameraPose, savedPose, toSynced, bodyToInertial] at this

/-- C207: latitude and longitude of a camera are those of the origin of the vehicle; hence right if the camera is not beside
it. -/
theorem C207_latlon_partial (m2ll : ℝ → ℝ → ℝ × ℝ) (origin camera : V3 ℝ) (b : FilterPose) :
    (cameraPose m2ll origin camera b).latlon = m2ll b.eastings b.northings ∧
      ((mounted b.roll b.pitch b.yaw origin camera (positionOf b)).x = b.northings →
        (mounted b.roll b.pitch b.yaw origin camera (positionOf b)).y = b.eastings →
        (cameraPose m2ll origin camera b).latlon =
          m2ll (cameraPose m2ll origin camera b).eastings (cameraPose m2ll origin camera b).northings) := by
  refine ⟨rfl, fun h1 h2 => ?_⟩
  unfold mounted at h1 h2
  rw [← C01_is_zyx_rotation] at h1 h2
  have e1 : (cameraPose m2ll origin camera b).northings = b.northings := by
    rw [← h1]
    simp only [positionOf, cameraPose, add, sub, bodyToInertial]
    ring
  have e2 : (cameraPose m2ll origin camera b).eastings = b.eastings := by
    rw [← h2]
    simp only [positionOf, cameraPose, add, sub, bodyToInertial]
    ring
  rw [e1, e2]
  rfl

/-- C207: not in general: a camera one metre ahead. -/
theorem C207_latlon_false : ¬ CameraLatLon := by
  intro h
  have := h (fun e n => (n, e)) ⟨0, 0, 0⟩ ⟨1, 0, 0⟩ (toSynced 0 0 0)
  simp [cameraPose, toSynced, bodyToInertial] at this

/-- C207: the poses of the vehicle from the particle filter are right in the horizontal; in the vertical exactly if the DVL
and the origin of the vehicle are at the same depth. -/
theorem C207_particles_partial (m2ll : ℝ → ℝ → ℝ × ℝ) (origin dvl : V3 ℝ) (b : FilterPose) :
    let c := pfCentrePose m2ll origin dvl b
    let m := mounted b.roll b.pitch b.yaw dvl origin (positionOf b)
    c.northings = m.x ∧ c.eastings = m.y ∧ c.latlon = m2ll c.eastings c.northings ∧ (c.depth = m.z ↔ m.z = b.depth) := by
  unfold mounted
  simp only [← C01_is_zyx_rotation]
  refine ⟨?_, ?_, rfl, eq_comm⟩ <;> simp only [pfCentrePose, positionOf, add, sub]

/-- C207: not in general. -/
theorem C207_particles_false : ¬ PfCentre := by
  intro h
  have := congrArg V3.z (h (fun _ _ => (0, 0)) ⟨0, 0, 0⟩ ⟨0, 0, 2⟩ (particlePose 0 0))
  unfold mounted at this
  rw [← C01_is_zyx_rotation] at this
  norm_num [positionOf, pfCentrePose, particlePose, add, sub, bodyToInertial] at this

/-- C207: a pose made from a particle has its position, speeds and altitude, and its angles in degrees. -/
theorem C207_particle (t : ℝ) (x : Fin 10 → ℝ) :
    let p := particlePose t x
    p.t = t ∧ positionOf p = ⟨x 0, x 1, x 2⟩ ∧ p.roll * (π / 180) = x 3 ∧ p.pitch * (π / 180) = x 4 ∧ p.yaw * (π / 180) = x 5 ∧
      (p.vx, p.vy, p.vz) = (x 6, x 7, x 8) ∧ p.altitude = x 9 := by
  have hp : π ≠ 0 := pi_ne_zero
  refine ⟨rfl, rfl, ?_, ?_, ?_, rfl, rfl⟩ <;> simp only [particlePose] <;> field_simp

/-- C207: a state turned into a pose and back is the same state. -/
theorem C207_state (t : ℝ) (s : KVec) (P : KMat) : fromSynced (toSynced t s P) = (t, s, P) := by
  have hp : π ≠ 0 := pi_ne_zero
  have e : ∀ a : ℝ, a * 180 / π * π / 180 = a := fun a => by field_simp
  unfold fromSynced toSynced
  simp only [e, Prod.mk.injEq, true_and, and_true]
  ext i
  fin_cases i <;> rfl

/-- C207: the standard deviations of a pose are the roots of the variances, those of angles and angular rates in degrees. -/
theorem C207_std (t : ℝ) (s : KVec) (P : KMat) (hP : IsCov P) (i : Ix) : 0 ≤ (toSynced t s P).std i ∧
    (toSynced t s P).std i ^ 2 = P i i * (if 3 ≤ i.val ∧ i.val < 6 ∨ 9 ≤ i.val then (180 / π) ^ 2 else 1) := by
  have hd : 0 ≤ P i i := by
    have := hP.2 (Pi.single i 1)
    rw [Matrix.mulVec_single_one, single_one_dotProduct] at this
    exact this
  have h1 : stdOfVar (P i i) ^ 2 = P i i := by rw [stdOfVar, max_eq_right hd, sq_sqrt hd]
  have h2 : 0 ≤ stdOfVar (P i i) := sqrt_nonneg _
  have h3 : 0 < 180 / π := by have := pi_pos; positivity
  show 0 ≤ stateStd P i ∧ stateStd P i ^ 2 = _
  unfold stateStd
  fin_cases i <;> simp at h1 h2 ⊢ <;> first
    | exact ⟨h2, h1⟩
    | exact ⟨by positivity, by rw [mul_pow, h1]; ring⟩

/-- A camera two metres ahead of the DVL of a vehicle that heads east is two metres further east. -/
example : positionOf (cameraPose (fun e n => (n, e)) ⟨0, 0, 0⟩ ⟨3, 0, 0⟩
    (savedPose (fun e n => (n, e)) ⟨0, 0, 0⟩ ⟨1, 0, 0⟩ true 5 0 ![10, 0, 0, 0, 0, π / 2, 0, 0, 0, 0, 0, 0] 0)) = ⟨10, 2, 0⟩ := by
  have hp : π ≠ 0 := pi_ne_zero
  have e : π / 2 * 180 / π * (π / 180) = π / 2 := by field_simp
  apply v3 <;> simp [positionOf, cameraPose, savedPose, toSynced, bodyToInertial, degToRad, e, Ix.X, Ix.Y, Ix.Z, Ix.ROLL, Ix.PITCH, Ix.YAW] <;> norm_num

end Oplab.Props
