import Verif.Spec.EkfMeas
import Verif.Props.Rotation

/-!
# C211: what a sensor tells the filter
-/

namespace Oplab.Props
open Oplab Oplab.Spec Real Ix

private theorem mk_feeds (t : ℝ) (ty : String) (l : List (Ix × ℝ × ℝ)) (hn : (l.map Prod.fst).Nodup) :
    Feeds (mkMeas t ty l) ty t (l.map fun e => ⟨e.1, e.2.1, e.2.2⟩) := by
  have hf : ∀ e ∈ l, l.find? (fun e' => e'.1 = e.1) = some e := by
    intro e he
    induction l with
    | nil => cases he
    | cons a l ih =>
      rw [List.map_cons, List.nodup_cons] at hn
      rw [List.find?_cons]
      rcases List.mem_cons.mp he with rfl | he
      · simp
      · have : a.1 ≠ e.1 := fun h => hn.1 (h ▸ List.mem_map_of_mem he)
        simp only [this, decide_false]
        exact ih hn.2 he
  refine ⟨rfl, rfl, ?_, ?_, ?_⟩
  · intro k hk
    obtain ⟨e, he, rfl⟩ := List.mem_map.mp hk
    simp only [mkMeas, hf e he, if_true, and_self]
  · intro i
    simp only [mkMeas, List.any_eq_true, decide_eq_true_eq, List.mem_map]
    constructor
    · rintro ⟨e, he, hi⟩
      exact ⟨_, ⟨e, he, rfl⟩, hi⟩
    · rintro ⟨_, ⟨e, he, rfl⟩, hi⟩
      exact ⟨e, he, hi⟩
  · intro i j h
    simp only [mkMeas, if_neg h]

/-- C211: a depth sensor tells the filter the depth of the DVL. -/
theorem C211_depth (c : EkfStd) (v : KDepth) (rpy arm p : V3 ℝ) (hp : p.z = v.depth) :
    Feeds (fromDepth c v rpy arm) "depth" v.time [⟨Z, (pointAt rpy p arm).z, ownOr v.std (v.depth * c.factorZ + c.offsetZ)⟩] := by
  have h := mk_feeds v.time "depth" [(Z, v.depth + (bodyToInertial rpy.x rpy.y rpy.z arm).z,
    if v.std > 0 then v.std ^ 2 else (v.depth * c.factorZ + c.offsetZ) ^ 2)] (by simp)
  rw [C01_is_zyx_rotation, ← hp] at h
  have : fromDepth c v rpy arm = mkMeas v.time "depth" [(Z, p.z + (rotZ (rad rpy.z) (rotY (rad rpy.y) (rotX (rad rpy.x) arm))).z,
    if v.std > 0 then v.std ^ 2 else (p.z * c.factorZ + c.offsetZ) ^ 2)] := by
    rw [← C01_is_zyx_rotation, hp]; rfl
  rw [this, ← hp]
  exact h

/-- C211: a USBL tells the filter the horizontal position of the DVL; its errors are taken to grow with the distance.
It gives both standard deviations or none. -/
theorem C211_usbl_partial (c : EkfStd) (v : KUsbl) (rpy arm p : V3 ℝ) (hx : p.x = v.north) (hy : p.y = v.east) (hs : 0 < v.northStd ↔ 0 < v.eastStd) :
    Feeds (fromUsbl c v rpy arm) "USBL" v.time
      [⟨X, (pointAt rpy p arm).x, ownOr v.northStd (c.offsetXY + c.factorXY * √(v.north ^ 2 + v.east ^ 2 + v.depth ^ 2))⟩,
       ⟨Y, (pointAt rpy p arm).y, ownOr v.eastStd (c.offsetXY + c.factorXY * √(v.north ^ 2 + v.east ^ 2 + v.depth ^ 2))⟩] := by
  have h1 : (pointAt rpy p arm).x = v.north + (bodyToInertial rpy.x rpy.y rpy.z arm).x := by
    rw [C01_is_zyx_rotation, ← hx]; rfl
  have h2 : (pointAt rpy p arm).y = v.east + (bodyToInertial rpy.x rpy.y rpy.z arm).y := by
    rw [C01_is_zyx_rotation, ← hy]; rfl
  rw [h1, h2]
  by_cases h : 0 < v.northStd
  · have h' := hs.mp h
    simp only [fromUsbl, gt_iff_lt, h, h', if_true, ownOr]
    exact mk_feeds v.time "USBL" [(X, _, _), (Y, _, _)] (by simp)
  · have h' : ¬ 0 < v.eastStd := fun q => h (hs.mpr q)
    simp only [fromUsbl, gt_iff_lt, h, h', if_false, ownOr]
    exact mk_feeds v.time "USBL" [(X, _, _), (Y, _, _)] (by simp)

/-- C211: a DVL that gives all three standard deviations or none tells the filter the three velocities. -/
theorem C211_dvl_partial (c : EkfStd) (v : KDvl) (hy : 0 < v.std.x ↔ 0 < v.std.y) (hz : 0 < v.std.x ↔ 0 < v.std.z) :
    Feeds (fromDvl c v) "DVL" v.time
      [⟨VX, v.v.x, ownOr v.std.x (|v.v.x| * c.factorV.x + c.offsetV.x)⟩,
       ⟨VY, v.v.y, ownOr v.std.y (|v.v.y| * c.factorV.y + c.offsetV.y)⟩,
       ⟨VZ, v.v.z, ownOr v.std.z (|v.v.z| * c.factorV.z + c.offsetV.z)⟩] := by
  by_cases h : 0 < v.std.x
  · have h1 := hy.mp h
    have h2 := hz.mp h
    simp only [fromDvl, gt_iff_lt, h, h1, h2, if_true, ownOr]
    exact mk_feeds v.time "DVL" [(VX, _, _), (VY, _, _), (VZ, _, _)] (by simp; decide)
  · have h1 : ¬ 0 < v.std.y := fun q => h (hy.mpr q)
    have h2 : ¬ 0 < v.std.z := fun q => h (hz.mpr q)
    simp only [fromDvl, gt_iff_lt, h, h1, h2, if_false, ownOr]
    exact mk_feeds v.time "DVL" [(VX, _, _), (VY, _, _), (VZ, _, _)] (by simp; decide)

private theorem rad_eq (a : ℝ) : a * π / 180 = rad a := by unfold rad; ring

/-- C211: an orientation tells the filter the three angles in radians, with errors in radians. -/
theorem C211_orientation_partial (c : EkfStd) (v : KOrient) (hy : 0 < v.std.x ↔ 0 < v.std.y) (hz : 0 < v.std.x ↔ 0 < v.std.z) :
    Feeds (fromOrientation c v) "orientation" v.time
      [⟨ROLL, rad v.rpy.x, ownOr (rad v.std.x) (rad (c.offsetO + v.rpy.x * c.factorO))⟩,
       ⟨PITCH, rad v.rpy.y, ownOr (rad v.std.y) (rad (c.offsetO + v.rpy.y * c.factorO))⟩,
       ⟨YAW, rad v.rpy.z, ownOr (rad v.std.z) (rad (c.offsetO + v.rpy.z * c.factorO))⟩] := by
  have hr : ∀ a, 0 < rad a ↔ 0 < a := fun a => by
    unfold rad
    exact mul_pos_iff_of_pos_right (by positivity)
  by_cases h : 0 < v.std.x
  · have h1 := hy.mp h
    have h2 := hz.mp h
    simp only [fromOrientation, gt_iff_lt, h, h1, h2, hr, if_true, ownOr, rad_eq]
    exact mk_feeds v.time "orientation" [(ROLL, _, _), (PITCH, _, _), (YAW, _, _)] (by simp; decide)
  · have h1 : ¬ 0 < v.std.y := fun q => h (hy.mpr q)
    have h2 : ¬ 0 < v.std.z := fun q => h (hz.mpr q)
    simp only [fromOrientation, gt_iff_lt, h, h1, h2, hr, if_false, ownOr, rad_eq]
    exact mk_feeds v.time "orientation" [(ROLL, _, _), (PITCH, _, _), (YAW, _, _)] (by simp; decide)

/-- C211 is false of a DVL that gives a standard deviation for its second axis only: it is not used. -/
theorem C211_own_false : ¬ OwnKept := by
  intro h
  have h1 := (h ⟨0, 0, ⟨0, 0, 0⟩, ⟨1, 1, 1⟩, 0, 0, 0, 0⟩ ⟨0, ⟨0, 0, 0⟩, ⟨0, 2, 0⟩⟩).2.1
  simp [fromDvl, mkMeas, ownOr, VX, VY, VZ] at h1
  norm_num at h1

private theorem le_sq' (a b : ℝ) (h : 0 ≤ a) (hb : a ≤ b) : a ^ 2 ≤ b ^ 2 := pow_le_pow_left₀ h hb 2

/-- C211: the offset is kept for the velocities of a DVL and the positions of a USBL, and for depths and angles that are not
negative. -/
theorem C211_offset_partial (c : EkfStd) (hc : StdSettingsOk c) :
    (∀ (v : KDepth) r a, v.std ≤ 0 → 0 ≤ v.depth → c.offsetZ ^ 2 ≤ (fromDepth c v r a).cov Z Z) ∧
    (∀ v : KDvl, v.std.x ≤ 0 → c.offsetV.x ^ 2 ≤ (fromDvl c v).cov VX VX ∧
      c.offsetV.y ^ 2 ≤ (fromDvl c v).cov VY VY ∧ c.offsetV.z ^ 2 ≤ (fromDvl c v).cov VZ VZ) ∧
    (∀ (v : KUsbl) r a, v.northStd ≤ 0 → c.offsetXY ^ 2 ≤ (fromUsbl c v r a).cov X X ∧
      c.offsetXY ^ 2 ≤ (fromUsbl c v r a).cov Y Y) ∧
    (∀ v : KOrient, v.std.x ≤ 0 → (0 ≤ v.rpy.x → rad c.offsetO ^ 2 ≤ (fromOrientation c v).cov ROLL ROLL) ∧
      (0 ≤ v.rpy.y → rad c.offsetO ^ 2 ≤ (fromOrientation c v).cov PITCH PITCH) ∧
      (0 ≤ v.rpy.z → rad c.offsetO ^ 2 ≤ (fromOrientation c v).cov YAW YAW)) := by
  obtain ⟨fz, oz, ⟨fx, fy, fvz⟩, ⟨ox, oy, ovz⟩, fxy, oxy, fo, oo⟩ := hc
  refine ⟨?_, ?_, ?_, ?_⟩
  · intro v r a hs hd
    have : (fromDepth c v r a).cov Z Z = (v.depth * c.factorZ + c.offsetZ) ^ 2 := by
      simp [fromDepth, mkMeas, not_lt.mpr hs]
    rw [this]
    exact le_sq' _ _ oz (by nlinarith [mul_nonneg hd fz])
  · intro v hs
    have e1 : (fromDvl c v).cov VX VX = (|v.v.x| * c.factorV.x + c.offsetV.x) ^ 2 := by
      simp [fromDvl, mkMeas, not_lt.mpr hs]
    have e2 : (fromDvl c v).cov VY VY = (|v.v.y| * c.factorV.y + c.offsetV.y) ^ 2 := by
      simp [fromDvl, mkMeas, not_lt.mpr hs, VX, VY]
    have e3 : (fromDvl c v).cov VZ VZ = (|v.v.z| * c.factorV.z + c.offsetV.z) ^ 2 := by
      simp [fromDvl, mkMeas, not_lt.mpr hs, VX, VY, VZ]
    rw [e1, e2, e3]
    exact ⟨le_sq' _ _ ox (by nlinarith [mul_nonneg (abs_nonneg v.v.x) fx]), le_sq' _ _ oy (by nlinarith [mul_nonneg (abs_nonneg v.v.y) fy]),
      le_sq' _ _ ovz (by nlinarith [mul_nonneg (abs_nonneg v.v.z) fvz])⟩
  · intro v r a hs
    have hq := mul_nonneg fxy (Real.sqrt_nonneg (v.north ^ 2 + v.east ^ 2 + v.depth ^ 2))
    have e1 : (fromUsbl c v r a).cov X X = (c.offsetXY + c.factorXY * √(v.north ^ 2 + v.east ^ 2 + v.depth ^ 2)) ^ 2 := by
      simp [fromUsbl, mkMeas, not_lt.mpr hs]
    have e2 : (fromUsbl c v r a).cov Y Y = (c.offsetXY + c.factorXY * √(v.north ^ 2 + v.east ^ 2 + v.depth ^ 2)) ^ 2 := by
      simp [fromUsbl, mkMeas, not_lt.mpr hs, X, Y]
    rw [e1, e2]
    exact ⟨le_sq' _ _ oxy (by linarith), le_sq' _ _ oxy (by linarith)⟩
  · intro v hs
    have hpi : 0 ≤ π / 180 := by positivity
    have e1 : (fromOrientation c v).cov ROLL ROLL = rad (c.offsetO + v.rpy.x * c.factorO) ^ 2 := by
      simp [fromOrientation, mkMeas, not_lt.mpr hs, rad_eq]
    have e2 : (fromOrientation c v).cov PITCH PITCH = rad (c.offsetO + v.rpy.y * c.factorO) ^ 2 := by
      simp [fromOrientation, mkMeas, not_lt.mpr hs, rad_eq, ROLL, PITCH]
    have e3 : (fromOrientation c v).cov YAW YAW = rad (c.offsetO + v.rpy.z * c.factorO) ^ 2 := by
      simp [fromOrientation, mkMeas, not_lt.mpr hs, rad_eq, ROLL, PITCH, YAW]
    rw [e1, e2, e3]
    have key : ∀ a, 0 ≤ a → rad c.offsetO ^ 2 ≤ rad (c.offsetO + a * c.factorO) ^ 2 := fun a ha =>
      le_sq' _ _ (mul_nonneg oo hpi) (mul_le_mul_of_nonneg_right (by nlinarith [mul_nonneg ha fo]) hpi)
    exact ⟨key _, key _, key _⟩

/-- C211 is false of negative angles: with an offset of 1 and a factor of 1/10, a roll of -10 degrees is taken to be exact. -/
theorem C211_offset_false : ¬ OffsetKept := by
  intro h
  have h1 := ((h ⟨0, 0, ⟨0, 0, 0⟩, ⟨0, 0, 0⟩, 0, 0, 1 / 10, 1⟩ (by norm_num [StdSettingsOk])).2.2.2 ⟨0, ⟨-10, 0, 0⟩, ⟨0, 0, 0⟩⟩ le_rfl).1
  have e : (fromOrientation ⟨0, 0, ⟨0, 0, 0⟩, ⟨0, 0, 0⟩, 0, 0, 1 / 10, 1⟩ ⟨0, ⟨-10, 0, 0⟩, ⟨0, 0, 0⟩⟩).cov ROLL ROLL = 0 := by
    simp [fromOrientation, mkMeas]
  rw [e] at h1
  have : 0 < rad 1 := by unfold rad; positivity
  nlinarith

/-- The hypotheses are met: a vehicle heading east with the depth sensor ahead of the DVL, and settings that are not zero. -/
example : Feeds (fromDepth ⟨0, 1, ⟨0, 0, 0⟩, ⟨0, 0, 0⟩, 0, 0, 0, 0⟩ ⟨5, 100, 0⟩ ⟨0, 10, 90⟩ ⟨-2, 0, 0⟩) "depth" 5
    [⟨Z, (pointAt ⟨0, 10, 90⟩ ⟨0, 0, 100⟩ ⟨-2, 0, 0⟩).z, ownOr 0 (100 * 0 + 1)⟩] :=
  C211_depth _ _ _ _ _ rfl

example : StdSettingsOk ⟨1 / 100, 1 / 10, ⟨1 / 100, 1 / 100, 1 / 100⟩, ⟨1 / 100, 1 / 100, 1 / 100⟩, 1 / 100, 2, 0, 1 / 2⟩ := by norm_num [StdSettingsOk]

/-- C211: the filter turns the lever arms with its own estimate of the attitude, which it holds in radians. -/
theorem C211_attitude (e : Ekf) (p arm : V3 ℝ) :
    pointAt e.rpyDeg p arm = add p (rotZ (e.state YAW) (rotY (e.state PITCH) (rotX (e.state ROLL) arm))) := by
  have h : ∀ x : ℝ, rad (x * 180 / π) = x := by
    intro x
    unfold rad
    field_simp
  simp only [pointAt, Ekf.rpyDeg, h]

end Oplab.Props
