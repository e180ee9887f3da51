import Verif.Model.Laser
import Verif.Spec.Laser
import Verif.Spec.Calib
import Mathlib.Tactic.Linarith
import Mathlib.Tactic.FieldSimp
import Mathlib.Tactic.LinearCombination
import Mathlib.Tactic.FinCases
import Mathlib.Topology.MetricSpace.ProperSpace.Real
import Mathlib.Topology.MetricSpace.Pseudo.Pi
import Mathlib.Topology.Order.Compact
import Mathlib.Topology.Instances.Matrix

/-! # C92-C94: laser planes, angles and triangulation -/

namespace Oplab.Props
open Oplab.Spec

/-! ## Planes through points -/

private theorem through_on (p0 p1 p2 : V3 ℝ) : OnPlane (planeThrough p0 p1 p2).1 (planeThrough p0 p1 p2).2 p0 ∧
    OnPlane (planeThrough p0 p1 p2).1 (planeThrough p0 p1 p2).2 p1 ∧
    OnPlane (planeThrough p0 p1 p2).1 (planeThrough p0 p1 p2).2 p2 := by
  by_cases h : (cross3 (diff3 p1 p0) (diff3 p2 p0)).x ≠ 0
  · have e : planeThrough p0 p1 p2 = _ := if_pos h
    rw [e]
    simp only [OnPlane]
    refine ⟨?_, ?_, ?_⟩ <;> field_simp <;> simp only [dot3, cross3, diff3] <;> ring
  · have e : planeThrough p0 p1 p2 = _ := if_neg h
    rw [e]
    simp only [OnPlane, dot3, cross3, diff3]
    refine ⟨?_, ?_, ?_⟩ <;> ring

/-- C93 (plane through three points): the plane contains the three points, its coefficients are not all zero unless the
points are on one line, and its first coefficient is one unless the plane is parallel to the first axis. -/
theorem C93_through_points (p0 p1 p2 : V3 ℝ) :
    let pl := planeThrough p0 p1 p2
    (OnPlane pl.1 pl.2 p0 ∧ OnPlane pl.1 pl.2 p1 ∧ OnPlane pl.1 pl.2 p2) ∧
      (¬ Aligned p0 p1 p2 → pl.1 ≠ ⟨0, 0, 0⟩) ∧ (pl.1.x = 1 ∨ pl.1.x = 0) := by
  refine ⟨through_on p0 p1 p2, fun ha hz => ?_, ?_⟩
  · by_cases h : (cross3 (diff3 p1 p0) (diff3 p2 p0)).x ≠ 0
    · have e : planeThrough p0 p1 p2 = _ := if_pos h
      rw [e] at hz
      have := congrArg V3.x hz
      simp only at this
      rw [div_self h] at this
      exact one_ne_zero this
    · have e : planeThrough p0 p1 p2 = _ := if_neg h
      rw [e] at hz
      simp only [cross3, diff3, V3.mk.injEq] at hz
      obtain ⟨h1, h2, h3⟩ := hz
      apply ha
      by_cases hx : p2.x - p0.x = 0 ∧ p2.y - p0.y = 0 ∧ p2.z - p0.z = 0
      · exact ⟨0, 1, Or.inr one_ne_zero, by rw [hx.1]; ring, by rw [hx.2.1]; ring, by rw [hx.2.2]; ring⟩
      · by_cases c1 : p2.x - p0.x = 0
        · by_cases c2 : p2.y - p0.y = 0
          · have c3 : p2.z - p0.z ≠ 0 := fun c3 => hx ⟨c1, c2, c3⟩
            exact ⟨p2.z - p0.z, p1.z - p0.z, Or.inl c3, by linarith, by linarith, by ring⟩
          · exact ⟨p2.y - p0.y, p1.y - p0.y, Or.inl c2, by linarith, by ring, by linarith⟩
        · exact ⟨p2.x - p0.x, p1.x - p0.x, Or.inl c1, by ring, by linarith, by linarith⟩
  · by_cases h : (cross3 (diff3 p1 p0) (diff3 p2 p0)).x ≠ 0
    · have e : planeThrough p0 p1 p2 = _ := if_pos h
      rw [e]; exact Or.inl (div_self h)
    · have e : planeThrough p0 p1 p2 = _ := if_neg h
      rw [e]; exact Or.inr (not_not.1 h)

example : ¬ Aligned ⟨0, 0, 0⟩ ⟨0, 1, 0⟩ ⟨0, 0, 1⟩ := by
  rintro ⟨a, b, h, h1, h2, h3⟩
  norm_num at h1 h2 h3
  exact h.elim (· h2) (· h3.symm)

/-! ## The uncertainty planes -/

private theorem norm2_dist (p q : V3 ℝ) : norm2 (diff3 p q) = distYZ p q := by
  unfold norm2 diff3 distYZ; ring_nf

private theorem accepted (d : ℝ) (p0 p1 p2 : V3 ℝ) (h : tripleAccepted d p0 p1 p2 = true) :
    d ≤ distYZ p0 p1 ∧ d ≤ distYZ p0 p2 ∧ d ≤ distYZ p1 p2 ∧ (planeThrough p0 p1 p2).1.x = 1 := by
  have hsym : ∀ p q, distYZ p q = distYZ q p := fun p q => by unfold distYZ; ring_nf
  unfold tripleAccepted at h
  simp only [norm2_dist] at h
  by_cases hn : distYZ p1 p0 < d ∨ distYZ p2 p0 < d ∨ distYZ p2 p1 < d
  · rw [if_pos hn] at h; cases h
  · rw [if_neg hn] at h
    push Not at hn
    obtain ⟨h1, h2, h3⟩ := hn
    refine ⟨(hsym _ _).symm ▸ h1, (hsym _ _).symm ▸ h2, (hsym _ _).symm ▸ h3, ?_⟩
    split_ifs at h with hc
    have hx : (cross3 (diff3 p1 p0) (diff3 p2 p0)).x ≠ 0 := by
      intro h0
      apply hc
      have : (diff3 p1 p0).y * (diff3 p2 p0).z - (diff3 p1 p0).z * (diff3 p2 p0).y = 0 := h0
      rw [this]; norm_num
    have e : planeThrough p0 p1 p2 = _ := if_pos hx
    rw [e]
    exact div_self hx

private theorem uncert_spec (num : ℕ) (d : ℝ) : ∀ (draws : List (V3 ℝ × V3 ℝ × V3 ℝ)) (planes r : List (V3 ℝ × ℝ)),
    planes.length ≤ num → uncertLoop num d draws planes = some r →
    r.length = num ∧ ∀ pl ∈ r, pl ∈ planes ∨ ∃ t ∈ draws, tripleAccepted d t.1 t.2.1 t.2.2 = true ∧ pl = planeThrough t.1 t.2.1 t.2.2
  | [], planes, r, hl, h => by
    rw [uncertLoop] at h
    split_ifs at h with hc
    obtain rfl := Option.some.inj h
    exact ⟨by omega, fun pl hp => Or.inl hp⟩
  | t :: ts, planes, r, hl, h => by
    rw [uncertLoop] at h
    split_ifs at h with hc ha
    · obtain ⟨h1, h2⟩ := uncert_spec num d ts _ r (by simp; omega) h
      refine ⟨h1, fun pl hp => ?_⟩
      rcases h2 pl hp with hp | ⟨t', ht', e⟩
      · rcases List.mem_append.1 hp with hp | hp
        · exact Or.inl hp
        · exact Or.inr ⟨t, by simp, ha, List.mem_singleton.1 hp⟩
      · exact Or.inr ⟨t', List.mem_cons_of_mem _ ht', e⟩
    · obtain ⟨h1, h2⟩ := uncert_spec num d ts _ r hl h
      refine ⟨h1, fun pl hp => ?_⟩
      rcases h2 pl hp with hp | ⟨t', ht', e⟩
      · exact Or.inl hp
      · exact Or.inr ⟨t', List.mem_cons_of_mem _ ht', e⟩
    · obtain rfl := Option.some.inj h
      exact ⟨by omega, fun pl hp => Or.inl hp⟩

/-- C92 for the first laser: if the calibration ends, it reports exactly the requested number of planes; each has first
coefficient one and contains three points of the cloud whose distances, seen along the first axis, are at least the
minimum. -/
theorem C92_planes_partial (num : ℕ) (d : ℝ) (_hd : 0 < d) (draws : List (V3 ℝ × V3 ℝ × V3 ℝ)) (r : List (V3 ℝ × ℝ))
    (h : uncertLoop num d draws [] = some r) :
    r.length = num ∧ ∀ pl ∈ r, pl.1.x = 1 ∧ ∃ p0 p1 p2, (p0, p1, p2) ∈ draws ∧
      (OnPlane pl.1 pl.2 p0 ∧ OnPlane pl.1 pl.2 p1 ∧ OnPlane pl.1 pl.2 p2) ∧
      d ≤ distYZ p0 p1 ∧ d ≤ distYZ p0 p2 ∧ d ≤ distYZ p1 p2 := by
  obtain ⟨h1, h2⟩ := uncert_spec num d draws [] r (by simp) h
  refine ⟨h1, fun pl hp => ?_⟩
  rcases h2 pl hp with hp | ⟨t, ht, ha, rfl⟩
  · cases hp
  · obtain ⟨a1, a2, a3, a4⟩ := accepted d _ _ _ ha
    exact ⟨a4, t.1, t.2.1, t.2.2, ht, through_on _ _ _, a1, a2, a3⟩

private theorem corner_accepted (x : ℝ) : tripleAccepted 1 ⟨x, 0, 0⟩ ⟨x, 1, 0⟩ ⟨x, 0, 1⟩ = true := by
  have h2 : ¬ Real.sqrt 2 < 1 := by
    rw [not_lt, Real.one_le_sqrt]; norm_num
  unfold tripleAccepted norm2 diff3
  norm_num [h2]

private theorem corner_plane (x : ℝ) : planeThrough ⟨x, 0, 0⟩ ⟨x, 1, 0⟩ ⟨x, 0, 1⟩ = (⟨1, 0, 0⟩, -x) := by
  unfold planeThrough cross3 diff3 dot3
  norm_num

private theorem corner_loop (x : ℝ) : uncertLoop 1 1 [(⟨x, 0, 0⟩, ⟨x, 1, 0⟩, ⟨x, 0, 1⟩)] [] = some [(⟨1, 0, 0⟩, -x)] := by
  simp [uncertLoop, corner_accepted, corner_plane]

example : ∃ r, uncertLoop 1 1 [(⟨5, 0, 0⟩, ⟨5, 1, 0⟩, ⟨5, 0, 1⟩)] [] = some r := ⟨_, corner_loop 5⟩

/-- The planes reported for the second laser are those of the first, whatever its points. -/
theorem C92_second_same (num : ℕ) (d1 d2 : ℝ) (draws1 draws2 : List (V3 ℝ × V3 ℝ × V3 ℝ)) (a b : List (V3 ℝ × ℝ))
    (h : bothLasers num d1 d2 draws1 draws2 = some (a, b)) : b = a := by
  unfold bothLasers at h
  cases e : uncertLoop num d1 draws1 [] with
  | none => rw [e] at h; cases h
  | some a' =>
    obtain ⟨hl, -⟩ := uncert_spec num d1 draws1 [] a' (by simp) e
    have hstop : uncertLoop num d2 draws2 a' = some a' := by
      cases draws2 with
      | nil => rw [uncertLoop, if_neg (by omega)]
      | cons t ts => rw [uncertLoop, if_neg (by omega)]
    rw [e] at h
    simp only [Option.bind_eq_bind, Option.bind_some, hstop, Option.pure_def, Option.some.injEq, Prod.mk.injEq] at h
    rw [← h.1, ← h.2]

/-- C92 for the second laser is false: its planes need not contain any of its points. -/
theorem C92_second_laser_false : ¬ ∀ (num : ℕ) (d1 d2 : ℝ) (draws1 draws2 : List (V3 ℝ × V3 ℝ × V3 ℝ)) (a b : List (V3 ℝ × ℝ)),
    0 < d1 → 0 < d2 → bothLasers num d1 d2 draws1 draws2 = some (a, b) →
    ∀ pl ∈ b, ∃ p0 p1 p2, (p0, p1, p2) ∈ draws2 ∧ OnPlane pl.1 pl.2 p0 := by
  intro h
  have hb : bothLasers 1 1 1 [(⟨5, 0, 0⟩, ⟨5, 1, 0⟩, ⟨5, 0, 1⟩)] [(⟨7, 0, 0⟩, ⟨7, 1, 0⟩, ⟨7, 0, 1⟩)] =
      some ([(⟨1, 0, 0⟩, -5)], [(⟨1, 0, 0⟩, -5)]) := by
    unfold bothLasers
    rw [corner_loop]
    simp [uncertLoop]
  obtain ⟨p0, p1, p2, hm, ho⟩ := h 1 1 1 _ _ _ _ one_pos one_pos hb (⟨1, 0, 0⟩, -5) (by simp)
  simp only [List.mem_singleton, Prod.mk.injEq] at hm
  rw [hm.1] at ho
  norm_num [OnPlane] at ho

/-- If all points have the same distance from the camera, the calibration of the uncertainty does not end. -/
theorem C92_flat_endless_false (num : ℕ) (hn : 0 < num) (d z : ℝ) (draws : List (V3 ℝ × V3 ℝ × V3 ℝ))
    (hz : ∀ t ∈ draws, t.1.z = z ∧ t.2.1.z = z ∧ t.2.2.z = z) : uncertLoop num d draws [] = none := by
  have : ∀ ds : List (V3 ℝ × V3 ℝ × V3 ℝ), (∀ t ∈ ds, t.1.z = z ∧ t.2.1.z = z ∧ t.2.2.z = z) → uncertLoop num d ds [] = none := by
    intro ds
    induction ds with
    | nil => intro _; rw [uncertLoop, if_pos (by simpa using hn)]
    | cons t ts ih =>
      intro h
      have ht := h t (by simp)
      have hr : tripleAccepted d t.1 t.2.1 t.2.2 = false := by
        unfold tripleAccepted
        simp only
        split_ifs with h1 h2
        · rfl
        · rfl
        · exfalso
          apply h2
          simp only [diff3, ht.1, ht.2.1, ht.2.2]
          norm_num
      rw [uncertLoop, if_pos (by simpa using hn), hr]
      simpa using ih (fun x hx => h x (List.mem_cons_of_mem _ hx))
  exact this draws hz

/-! ## Angles of a plane -/

private theorem len_pos (n : V3 ℝ) (h : n ≠ ⟨0, 0, 0⟩) : 0 < norm3 n := by
  unfold norm3 dot3
  apply Real.sqrt_pos.2
  by_contra h'
  push Not at h'
  apply h
  have hx : n.x = 0 := by nlinarith [mul_self_nonneg n.x, mul_self_nonneg n.y, mul_self_nonneg n.z]
  have hy : n.y = 0 := by nlinarith [mul_self_nonneg n.x, mul_self_nonneg n.y, mul_self_nonneg n.z]
  have hz : n.z = 0 := by nlinarith [mul_self_nonneg n.x, mul_self_nonneg n.y, mul_self_nonneg n.z]
  cases n; simp_all

private theorem norm3_sq (n : V3 ℝ) : norm3 n ^ 2 = n.x ^ 2 + n.y ^ 2 + n.z ^ 2 := by
  unfold norm3 dot3
  rw [Real.sq_sqrt (by nlinarith [mul_self_nonneg n.x, mul_self_nonneg n.y, mul_self_nonneg n.z])]; ring

private theorem norm3_len3 (n : V3 ℝ) : norm3 n = len3 n := by unfold norm3 len3 dot3; ring_nf

private theorem unit_sq (n : V3 ℝ) (h : n ≠ ⟨0, 0, 0⟩) : (n.x / norm3 n) ^ 2 + (n.y / norm3 n) ^ 2 + (n.z / norm3 n) ^ 2 = 1 := by
  have hp := len_pos n h
  rw [div_pow, div_pow, div_pow, norm3_sq]
  have : n.x ^ 2 + n.y ^ 2 + n.z ^ 2 ≠ 0 := by rw [← norm3_sq]; positivity
  field_simp

/-- The angle for a unit vector that points forward. -/
private theorem forward (u : V3 ℝ) (h : u.x ^ 2 + u.y ^ 2 + u.z ^ 2 = 1) (hx : 0 ≤ u.x) :
    0 ≤ atan2 (norm3 (cross3 u ⟨1, 0, 0⟩)) (dot3 u ⟨1, 0, 0⟩) ∧
      atan2 (norm3 (cross3 u ⟨1, 0, 0⟩)) (dot3 u ⟨1, 0, 0⟩) ≤ Real.pi / 2 ∧
      Real.cos (atan2 (norm3 (cross3 u ⟨1, 0, 0⟩)) (dot3 u ⟨1, 0, 0⟩)) = u.x := by
  have hd : dot3 u ⟨1, 0, 0⟩ = u.x := by unfold dot3; ring
  have hs : norm3 (cross3 u ⟨1, 0, 0⟩) ^ 2 = u.y ^ 2 + u.z ^ 2 := by
    rw [norm3_sq]; unfold cross3; ring
  have h0 : 0 ≤ norm3 (cross3 u ⟨1, 0, 0⟩) := Real.sqrt_nonneg _
  rw [hd]
  generalize norm3 (cross3 u ⟨1, 0, 0⟩) = s at hs h0
  have hn : ‖(⟨u.x, s⟩ : ℂ)‖ = 1 := by
    rw [Complex.norm_def, Complex.normSq_mk, Real.sqrt_eq_one]
    nlinarith
  have h1 := Complex.norm_mul_cos_arg ⟨u.x, s⟩
  rw [hn, one_mul] at h1
  refine ⟨Complex.arg_nonneg_iff.2 h0, ?_, h1⟩
  exact (abs_le.1 (Complex.abs_arg_le_pi_div_two_iff.2 hx)).2

/-- C93 (plane angle): the angle is the one between the normal, taken as a line, and the first axis: between 0 and 90
degrees, with cosine `|n.x| / |n|`. -/
theorem C93_plane_angle (n : V3 ℝ) (h : n ≠ ⟨0, 0, 0⟩) :
    0 ≤ getAngle n ∧ getAngle n ≤ 90 ∧ Real.cos (getAngle n * (Real.pi / 180)) = |n.x| / len3 n := by
  have hp := len_pos n h
  have hpi := Real.pi_pos
  have hu := unit_sq n h
  have key : ∀ a : ℝ, 0 ≤ a → a ≤ Real.pi / 2 → 0 ≤ a * (180 / Real.pi) ∧ a * (180 / Real.pi) ≤ 90 ∧
      a * (180 / Real.pi) * (Real.pi / 180) = a := fun a h1 h2 => by
    refine ⟨by positivity, ?_, by field_simp⟩
    calc a * (180 / Real.pi) ≤ Real.pi / 2 * (180 / Real.pi) := mul_le_mul_of_nonneg_right h2 (by positivity)
      _ = 90 := by field_simp; norm_num
  rw [← norm3_len3]
  by_cases hx : n.x / norm3 n < 0
  · have hx' : n.x < 0 := by
      by_contra h'
      exact absurd hx (not_lt.2 (div_nonneg (not_lt.1 h') hp.le))
    obtain ⟨f1, f2, f3⟩ := forward ⟨n.x / norm3 n * -1, n.y / norm3 n * -1, n.z / norm3 n * -1⟩ (by
      simp only; nlinarith) (by simp only; linarith)
    have e : getAngle n = atan2 (norm3 (cross3 ⟨n.x / norm3 n * -1, n.y / norm3 n * -1, n.z / norm3 n * -1⟩ ⟨1, 0, 0⟩))
        (dot3 ⟨n.x / norm3 n * -1, n.y / norm3 n * -1, n.z / norm3 n * -1⟩ ⟨1, 0, 0⟩) * (180 / Real.pi) := by
      unfold getAngle; simp only [if_pos hx]
    obtain ⟨k1, k2, k3⟩ := key _ f1 f2
    rw [e]
    refine ⟨k1, k2, ?_⟩
    rw [k3, f3, abs_of_neg hx']; ring
  · obtain ⟨f1, f2, f3⟩ := forward ⟨n.x / norm3 n, n.y / norm3 n, n.z / norm3 n⟩ hu (not_lt.1 hx)
    have hx' : 0 ≤ n.x := by
      by_contra h'
      exact hx (div_neg_of_neg_of_pos (not_le.1 h') hp)
    have e : getAngle n = atan2 (norm3 (cross3 ⟨n.x / norm3 n, n.y / norm3 n, n.z / norm3 n⟩ ⟨1, 0, 0⟩))
        (dot3 ⟨n.x / norm3 n, n.y / norm3 n, n.z / norm3 n⟩ ⟨1, 0, 0⟩) * (180 / Real.pi) := by
      unfold getAngle; simp only [if_neg hx]
    obtain ⟨k1, k2, k3⟩ := key _ f1 f2
    rw [e]
    refine ⟨k1, k2, ?_⟩
    rw [k3, f3, abs_of_nonneg hx']

example : (⟨-3, 4, 0⟩ : V3 ℝ) ≠ ⟨0, 0, 0⟩ := by simp

private theorem polar (r C S : ℝ) : ((r : ℝ) : ℂ) * ((C : ℂ) + (S : ℂ) * Complex.I) = ⟨r * C, r * S⟩ := by
  apply Complex.ext <;> simp

private theorem atan2_tan (t c : ℝ) (h1 : -(Real.pi / 2) < t) (h2 : t < Real.pi / 2) (hc : 0 < c) :
    atan2 (c * Real.tan t) c = t := by
  have hcos := Real.cos_pos_of_mem_Ioo ⟨h1, h2⟩
  have hpi := Real.pi_pos
  have e : (⟨c, c * Real.tan t⟩ : ℂ) = ((c / Real.cos t : ℝ) : ℂ) * (Complex.cos t + Complex.sin t * Complex.I) := by
    rw [← Complex.ofReal_cos, ← Complex.ofReal_sin, Real.tan_eq_sin_div_cos]
    rw [polar]
    congr 1 <;> field_simp
  unfold atan2
  rw [e]
  exact Complex.arg_mul_cos_add_sin_mul_I (div_pos hc hcos) ⟨by linarith, by linarith⟩

private theorem atan2_tan_neg (t c : ℝ) (h1 : -(Real.pi / 2) < t) (h2 : t < Real.pi / 2) (hc : c < 0) :
    atan2 (c * Real.tan t) c = if t ≤ 0 then t + Real.pi else t - Real.pi := by
  have hcos := Real.cos_pos_of_mem_Ioo ⟨h1, h2⟩
  have hpi := Real.pi_pos
  split_ifs with ht
  · have e : (⟨c, c * Real.tan t⟩ : ℂ) = ((-c / Real.cos t : ℝ) : ℂ) *
        (Complex.cos ((t + Real.pi : ℝ) : ℂ) + Complex.sin ((t + Real.pi : ℝ) : ℂ) * Complex.I) := by
      rw [← Complex.ofReal_cos, ← Complex.ofReal_sin, Real.tan_eq_sin_div_cos, Real.cos_add_pi, Real.sin_add_pi]
      rw [polar]
      congr 1 <;> field_simp
    unfold atan2
    rw [e]
    exact Complex.arg_mul_cos_add_sin_mul_I (div_pos (by linarith) hcos) ⟨by linarith, by linarith⟩
  · have e : (⟨c, c * Real.tan t⟩ : ℂ) = ((-c / Real.cos t : ℝ) : ℂ) *
        (Complex.cos ((t - Real.pi : ℝ) : ℂ) + Complex.sin ((t - Real.pi : ℝ) : ℂ) * Complex.I) := by
      rw [← Complex.ofReal_cos, ← Complex.ofReal_sin, Real.tan_eq_sin_div_cos, Real.cos_sub_pi, Real.sin_sub_pi]
      rw [polar]
      congr 1 <;> field_simp
    unfold atan2
    rw [e]
    exact Complex.arg_mul_cos_add_sin_mul_I (div_pos (by linarith) hcos) ⟨by linarith, by linarith⟩

private theorem fold_atan2 (a c : ℝ) (h1 : -90 < a) (h2 : a < 90) (hc : c ≠ 0) :
    foldAngle (atan2 (c * Real.tan (a * (Real.pi / 180))) c * (180 / Real.pi)) = a := by
  have hpi := Real.pi_pos
  have g1 : -(Real.pi / 2) < a * (Real.pi / 180) := by
    have := mul_lt_mul_of_pos_right h1 (show 0 < Real.pi / 180 by positivity)
    linarith
  have g2 : a * (Real.pi / 180) < Real.pi / 2 := by
    have := mul_lt_mul_of_pos_right h2 (show 0 < Real.pi / 180 by positivity)
    linarith
  rcases lt_or_gt_of_ne hc with hc | hc
  · rw [atan2_tan_neg _ _ g1 g2 hc]
    by_cases ht : a * (Real.pi / 180) ≤ 0
    · rw [if_pos ht]
      have e : (a * (Real.pi / 180) + Real.pi) * (180 / Real.pi) = a + 180 := by field_simp
      have ha : a ≤ 0 := by
        by_contra h'
        have := mul_pos (not_le.1 h') (show 0 < Real.pi / 180 by positivity)
        linarith
      rw [e]
      simp only [foldAngle]
      rw [if_pos (show a + 180 > 90 by linarith), if_neg (by linarith)]
      ring
    · rw [if_neg ht]
      have e : (a * (Real.pi / 180) - Real.pi) * (180 / Real.pi) = a - 180 := by field_simp
      rw [e]
      simp only [foldAngle]
      rw [if_neg (show ¬ a - 180 > 90 by linarith), if_pos (by linarith)]
      ring
  · rw [atan2_tan _ _ g1 g2 hc]
    have e : a * (Real.pi / 180) * (180 / Real.pi) = a := by field_simp
    rw [e]
    simp only [foldAngle]
    rw [if_neg (show ¬ a > 90 by linarith), if_neg (by linarith)]

/-- C93 (pitch and yaw): the angles computed from any multiple of the normal of a plane built from a pitch and a yaw angle
are these angles. -/
theorem C93_pitch_yaw (pitch yaw c : ℝ) (p : V3 ℝ) (hp : -90 < pitch ∧ pitch < 90) (hy : -90 < yaw ∧ yaw < 90) (hc : c ≠ 0) :
    let u := (buildPlane pitch yaw p).2.1
    (getAngles ⟨c * u.x, c * u.y, c * u.z⟩).2 = (pitch, yaw) := by
  have hn0 : (⟨1, Real.tan (yaw * (Real.pi / 180)), Real.tan (pitch * (Real.pi / 180))⟩ : V3 ℝ) ≠ ⟨0, 0, 0⟩ := by simp
  have hpos := len_pos _ hn0
  simp only [buildPlane]
  set N := norm3 ⟨1, Real.tan (yaw * (Real.pi / 180)), Real.tan (pitch * (Real.pi / 180))⟩ with hN
  have hm0 : (⟨c * (1 / N), c * (Real.tan (yaw * (Real.pi / 180)) / N), c * (Real.tan (pitch * (Real.pi / 180)) / N)⟩ : V3 ℝ) ≠
      ⟨0, 0, 0⟩ := by
    intro h
    have := congrArg V3.x h
    simp only [mul_eq_zero, hc, false_or, one_div, inv_eq_zero] at this
    exact hpos.ne' this
  have hMpos := len_pos _ hm0
  simp only [getAngles]
  set M := norm3 ⟨c * (1 / N), c * (Real.tan (yaw * (Real.pi / 180)) / N), c * (Real.tan (pitch * (Real.pi / 180)) / N)⟩ with hM
  have hk : c * (1 / N) / M ≠ 0 := by positivity
  have e1 : c * (Real.tan (pitch * (Real.pi / 180)) / N) / M = c * (1 / N) / M * Real.tan (pitch * (Real.pi / 180)) := by ring
  have e2 : c * (Real.tan (yaw * (Real.pi / 180)) / N) / M = c * (1 / N) / M * Real.tan (yaw * (Real.pi / 180)) := by ring
  rw [e1, e2, fold_atan2 pitch _ hp.1 hp.2 hk, fold_atan2 yaw _ hy.1 hy.2 hk]

/-- C93 in full for `build_plane`: the plane contains the point. -/
def PlaneThroughPoint : Prop :=
  ∀ (pitch yaw : ℝ) (p : V3 ℝ), -90 < pitch ∧ pitch < 90 → -90 < yaw ∧ yaw < 90 →
    OnPlane (buildPlane pitch yaw p).1.1 (buildPlane pitch yaw p).1.2 p

/-- C93 (offset): the third value is where the returned plane meets the line parallel to the first axis at the height of the
point, with third coordinate 0; the offset of the plane is that of the parallel plane with a unit normal through the point. -/
theorem C93_build_offset (pitch yaw : ℝ) (p : V3 ℝ) :
    OnPlane (buildPlane pitch yaw p).1.1 (buildPlane pitch yaw p).1.2 ⟨(buildPlane pitch yaw p).2.2, p.y, 0⟩ ∧
      OnPlane (buildPlane pitch yaw p).2.1 (buildPlane pitch yaw p).1.2 p := by
  constructor
  · simp only [buildPlane, OnPlane, dot3]
    ring
  · simp only [buildPlane, OnPlane, dot3]
    ring

/-- The returned plane mixes the normalised offset with coefficients that are not normalised. -/
theorem C93_build_plane_false : ¬ PlaneThroughPoint := by
  intro h
  have h1 := h 45 0 ⟨1, 0, 0⟩ (by norm_num) (by norm_num)
  have e : (45 : ℝ) * (Real.pi / 180) = Real.pi / 4 := by ring
  simp only [buildPlane, OnPlane, e, zero_mul, Real.tan_zero, Real.tan_pi_div_four, dot3, norm3] at h1
  norm_num at h1
  have h2 : Real.sqrt 2 * Real.sqrt 2 = 2 := Real.mul_self_sqrt (by norm_num)
  have h3 : (Real.sqrt 2)⁻¹ = 1 := by linarith
  rw [inv_eq_one] at h3
  rw [h3] at h2
  norm_num at h2

/-- C93 (axes): the change of axes keeps distances and the handedness; forward is up in the image. -/
theorem C93_axes (p q r : V3 ℝ) : dist3 (opencvToNed p) (opencvToNed q) = dist3 p q ∧
    dot3 (cross3 (opencvToNed p) (opencvToNed q)) (opencvToNed r) = dot3 (cross3 p q) r ∧
    opencvToNed ⟨0, -1, 0⟩ = ⟨1, 0, 0⟩ ∧ opencvToNed ⟨1, 0, 0⟩ = ⟨0, 1, 0⟩ := by
  refine ⟨?_, ?_, ?_, ?_⟩
  · unfold dist3 opencvToNed; ring_nf
  · unfold dot3 cross3 opencvToNed; ring
  · norm_num [opencvToNed]
  · norm_num [opencvToNed]

/-! ## Triangulation -/

private theorem kernel_of_last {m n : ℕ} (M : Matrix (Fin m) (Fin n) ℝ) (v : Fin n → ℝ) (hv : LastSingular M v)
    (w : Fin n → ℝ) (hw : w ≠ 0) (hM : M.mulVec w = 0) : M.mulVec v = 0 := by
  have hs : 0 < ∑ i, w i ^ 2 := by
    obtain ⟨i, hi⟩ := Function.ne_iff.1 hw
    exact Finset.sum_pos' (fun j _ => sq_nonneg _) ⟨i, Finset.mem_univ _, by have : w i ≠ 0 := hi; positivity⟩
  set s := Real.sqrt (∑ i, w i ^ 2) with hsd
  have hs2 : s ^ 2 = ∑ i, w i ^ 2 := Real.sq_sqrt hs.le
  have h1 := hv.2 (s⁻¹ • w) (by
    simp only [Pi.smul_apply, smul_eq_mul, mul_pow, ← Finset.mul_sum, ← hs2]
    have : s ≠ 0 := by rw [hsd]; positivity
    field_simp)
  rw [Matrix.mulVec_smul, hM] at h1
  simp only [smul_zero, Pi.zero_apply, ne_eq, OfNat.ofNat_ne_zero, not_false_eq_true, zero_pow, Finset.sum_const_zero] at h1
  have h2 := (Finset.sum_eq_zero_iff_of_nonneg (fun i _ => sq_nonneg (M.mulVec v i))).1
    (le_antisymm h1 (Finset.sum_nonneg fun i _ => sq_nonneg _))
  funext i
  exact pow_eq_zero_iff (two_ne_zero) |>.1 (h2 i (Finset.mem_univ _))

/-- Every matrix has such a vector. -/
theorem exists_last {m n : ℕ} [NeZero n] (M : Matrix (Fin m) (Fin n) ℝ) : ∃ v, LastSingular M v := by
  have hcl : IsClosed {v : Fin n → ℝ | ∑ i, v i ^ 2 = 1} := isClosed_eq (by fun_prop) continuous_const
  have hb : Bornology.IsBounded {v : Fin n → ℝ | ∑ i, v i ^ 2 = 1} := by
    refine (Metric.isBounded_closedBall (x := (0 : Fin n → ℝ)) (r := 1)).subset fun v hv => ?_
    rw [Metric.mem_closedBall, dist_pi_le_iff zero_le_one]
    intro i
    rw [Pi.zero_apply, Real.dist_eq, sub_zero]
    have h1 : v i ^ 2 ≤ ∑ j, v j ^ 2 := Finset.single_le_sum (fun j _ => sq_nonneg (v j)) (Finset.mem_univ i)
    rw [hv] at h1
    exact (sq_le_one_iff_abs_le_one _).1 h1
  have hc := Metric.isCompact_of_isClosed_isBounded hcl hb
  obtain ⟨v, hv, hmin⟩ := hc.exists_isMinOn (f := fun v => ∑ i, M.mulVec v i ^ 2)
    ⟨Pi.single 0 1, by simp [Pi.single_apply, ite_pow]⟩
    (Continuous.continuousOn (by
      apply continuous_finsetSum
      intro i _
      exact ((continuous_apply i).comp (Continuous.matrix_mulVec continuous_const continuous_id)).pow 2))
  exact ⟨v, hv, fun w hw => hmin hw⟩

private theorem lst_mulVec (x1 x2 : ℝ × ℝ) (P1 P2 : Matrix (Fin 3) (Fin 4) ℝ) (v : Fin 6 → ℝ) :
    (lstMatrix x1 x2 P1 P2).mulVec v = ![P1.mulVec ![v 0, v 1, v 2, v 3] 0 - x1.2 * v 4, P1.mulVec ![v 0, v 1, v 2, v 3] 1 - x1.1 * v 4,
      P1.mulVec ![v 0, v 1, v 2, v 3] 2 - v 4, P2.mulVec ![v 0, v 1, v 2, v 3] 0 - x2.2 * v 5,
      P2.mulVec ![v 0, v 1, v 2, v 3] 1 - x2.1 * v 5, P2.mulVec ![v 0, v 1, v 2, v 3] 2 - v 5] := by
  funext i
  fin_cases i <;>
    simp [Matrix.mulVec, dotProduct, Fin.sum_univ_six, Fin.sum_univ_four, lstMatrix] <;> ring

/-- C94: if both cameras see a point at the given pixels, and no other point (nor a direction) there, then the least squares
triangulation returns that point. -/
theorem C94_least_squares (svd : Matrix (Fin 6) (Fin 6) ℝ → Fin 6 → ℝ) (x1 x2 : ℝ × ℝ) (P1 P2 : Matrix (Fin 3) (Fin 4) ℝ) (X : V3 ℝ)
    (hsvd : LastSingular (lstMatrix x1 x2 P1 P2) (svd (lstMatrix x1 x2 P1 P2)))
    (h1 : Sees P1 ![X.x, X.y, X.z, 1] x1) (h2 : Sees P2 ![X.x, X.y, X.z, 1] x2)
    (hu : ∀ w, Sees P1 w x1 → Sees P2 w x2 → ∃ c : ℝ, w = c • ![X.x, X.y, X.z, 1]) :
    triangulateLst svd x1 x2 P1 P2 = X := by
  set v := svd (lstMatrix x1 x2 P1 P2) with hv
  have hk : (lstMatrix x1 x2 P1 P2).mulVec v = 0 := by
    refine kernel_of_last _ _ hsvd ![X.x, X.y, X.z, 1, P1.mulVec ![X.x, X.y, X.z, 1] 2, P2.mulVec ![X.x, X.y, X.z, 1] 2] (fun h => ?_) ?_
    · have := congrFun h 3
      simp at this
    · rw [lst_mulVec]
      funext i
      fin_cases i
      · simpa [sub_eq_zero] using h1.1
      · simpa [sub_eq_zero] using h1.2
      · simp
      · simpa [sub_eq_zero] using h2.1
      · simpa [sub_eq_zero] using h2.2
      · simp
  rw [lst_mulVec] at hk
  have k0 := congrFun hk 0
  have k1 := congrFun hk 1
  have k2 := congrFun hk 2
  have k3 := congrFun hk 3
  have k4 := congrFun hk 4
  have k5 := congrFun hk 5
  simp at k0 k1 k2 k3 k4 k5
  have e2 : P1.mulVec ![v 0, v 1, v 2, v 3] 2 = v 4 := by linarith
  have e5 : P2.mulVec ![v 0, v 1, v 2, v 3] 2 = v 5 := by linarith
  obtain ⟨c, hc⟩ := hu ![v 0, v 1, v 2, v 3] ⟨by rw [e2]; linarith, by rw [e2]; linarith⟩ ⟨by rw [e5]; linarith, by rw [e5]; linarith⟩
  have v0 : v 0 = c * X.x := by simpa using congrFun hc 0
  have v1 : v 1 = c * X.y := by simpa using congrFun hc 1
  have v2 : v 2 = c * X.z := by simpa using congrFun hc 2
  have v3 : v 3 = c := by simpa using congrFun hc 3
  have hc0 : c ≠ 0 := by
    rintro rfl
    have hw : ![v 0, v 1, v 2, v 3] = 0 := by rw [hc, zero_smul]
    rw [hw, Matrix.mulVec_zero] at e2 e5
    have hone := hsvd.1
    have v4 : v 4 = 0 := e2.symm
    have v5 : v 5 = 0 := e5.symm
    rw [Fin.sum_univ_six, v0, v1, v2, v3, v4, v5] at hone
    norm_num at hone
  simp only [triangulateLst, ← hv, v0, v1, v2, v3]
  rw [mul_div_cancel_left₀ _ hc0, mul_div_cancel_left₀ _ hc0, mul_div_cancel_left₀ _ hc0]

private theorem dlt_mulVec (x1 x2 : ℝ × ℝ) (P1 P2 : Matrix (Fin 3) (Fin 4) ℝ) (w : Fin 4 → ℝ) :
    (dltMatrix x1 x2 P1 P2).mulVec w = ![x1.2 * P1.mulVec w 2 - P1.mulVec w 0, x1.1 * P1.mulVec w 2 - P1.mulVec w 1,
      x2.2 * P2.mulVec w 2 - P2.mulVec w 0, x2.1 * P2.mulVec w 2 - P2.mulVec w 1] := by
  funext i
  fin_cases i <;>
    simp [Matrix.mulVec, dotProduct, Fin.sum_univ_four, dltMatrix] <;> ring

/-- C94 for the direct linear triangulation. -/
theorem C94_direct_linear (svd : Matrix (Fin 4) (Fin 4) ℝ → Fin 4 → ℝ) (x1 x2 : ℝ × ℝ) (P1 P2 : Matrix (Fin 3) (Fin 4) ℝ) (X : V3 ℝ)
    (hsvd : LastSingular (dltMatrix x1 x2 P1 P2) (svd (dltMatrix x1 x2 P1 P2)))
    (h1 : Sees P1 ![X.x, X.y, X.z, 1] x1) (h2 : Sees P2 ![X.x, X.y, X.z, 1] x2)
    (hu : ∀ w, Sees P1 w x1 → Sees P2 w x2 → ∃ c : ℝ, w = c • ![X.x, X.y, X.z, 1]) :
    triangulateDlt svd x1 x2 P1 P2 = X := by
  set v := svd (dltMatrix x1 x2 P1 P2) with hv
  have hk : (dltMatrix x1 x2 P1 P2).mulVec v = 0 := by
    refine kernel_of_last _ _ hsvd ![X.x, X.y, X.z, 1] (fun h => ?_) ?_
    · have := congrFun h 3
      simp at this
    · rw [dlt_mulVec, h1.1, h1.2, h2.1, h2.2]
      funext i
      fin_cases i <;> simp
  rw [dlt_mulVec] at hk
  have k0 := congrFun hk 0
  have k1 := congrFun hk 1
  have k2 := congrFun hk 2
  have k3 := congrFun hk 3
  simp at k0 k1 k2 k3
  obtain ⟨c, hc⟩ := hu v ⟨by linarith, by linarith⟩ ⟨by linarith, by linarith⟩
  have v0 : v 0 = c * X.x := by simpa using congrFun hc 0
  have v1 : v 1 = c * X.y := by simpa using congrFun hc 1
  have v2 : v 2 = c * X.z := by simpa using congrFun hc 2
  have v3 : v 3 = c := by simpa using congrFun hc 3
  have hc0 : c ≠ 0 := by
    rintro rfl
    have hone := hsvd.1
    rw [hc, zero_smul] at hone
    norm_num at hone
  simp only [triangulateDlt, ← hv, v0, v1, v2, v3]
  rw [mul_div_cancel_left₀ _ hc0, mul_div_cancel_left₀ _ hc0, mul_div_cancel_left₀ _ hc0]

/-- C94 for a rectified pair of cameras (equal focal length, displaced along the image plane by a baseline that is not
zero): the pixels of a point that is not in the plane of the camera centres determine it, and both triangulations return
it. -/
theorem C94_rectified (svd6 : Matrix (Fin 6) (Fin 6) ℝ → Fin 6 → ℝ) (svd4 : Matrix (Fin 4) (Fin 4) ℝ → Fin 4 → ℝ)
    (hsvd6 : ∀ M, LastSingular M (svd6 M)) (hsvd4 : ∀ M, LastSingular M (svd4 M))
    (f cx cy cx' cy' tx ty : ℝ) (hf : f ≠ 0) (ht : tx ≠ 0 ∨ ty ≠ 0) (X : V3 ℝ) (hz : X.z ≠ 0) :
    let P1 : Matrix (Fin 3) (Fin 4) ℝ := !![f, 0, cx, 0; 0, f, cy, 0; 0, 0, 1, 0]
    let P2 : Matrix (Fin 3) (Fin 4) ℝ := !![f, 0, cx', tx; 0, f, cy', ty; 0, 0, 1, 0]
    let x1 : ℝ × ℝ := ((f * X.y + cy * X.z) / X.z, (f * X.x + cx * X.z) / X.z)
    let x2 : ℝ × ℝ := ((f * X.y + cy' * X.z + ty) / X.z, (f * X.x + cx' * X.z + tx) / X.z)
    triangulateLst svd6 x1 x2 P1 P2 = X ∧ triangulateDlt svd4 x1 x2 P1 P2 = X := by
  intro P1 P2 x1 x2
  have hP1 : ∀ w : Fin 4 → ℝ, P1.mulVec w = ![f * w 0 + cx * w 2, f * w 1 + cy * w 2, w 2] := fun w => by
    funext i; fin_cases i <;> simp [P1, Matrix.mulVec, dotProduct, Fin.sum_univ_four]
  have hP2 : ∀ w : Fin 4 → ℝ, P2.mulVec w = ![f * w 0 + cx' * w 2 + tx * w 3, f * w 1 + cy' * w 2 + ty * w 3, w 2] := fun w => by
    funext i; fin_cases i <;> simp [P2, Matrix.mulVec, dotProduct, Fin.sum_univ_four]
  have h1 : Sees P1 ![X.x, X.y, X.z, 1] x1 := by
    unfold Sees; rw [hP1]
    constructor <;> simp [x1] <;> field_simp
  have h2 : Sees P2 ![X.x, X.y, X.z, 1] x2 := by
    unfold Sees; rw [hP2]
    constructor <;> simp [x2] <;> field_simp
  have hu : ∀ w, Sees P1 w x1 → Sees P2 w x2 → ∃ c : ℝ, w = c • ![X.x, X.y, X.z, 1] := by
    intro w hw1 hw2
    unfold Sees at hw1 hw2
    rw [hP1] at hw1
    rw [hP2] at hw2
    simp only [Matrix.cons_val_zero, Matrix.cons_val_one, Matrix.cons_val, x1, x2] at hw1 hw2
    obtain ⟨a1, a2⟩ := hw1
    obtain ⟨b1, b2⟩ := hw2
    have a1' : X.z * (f * w 0 + cx * w 2) = (f * X.x + cx * X.z) * w 2 := by rw [a1]; field_simp
    have a2' : X.z * (f * w 1 + cy * w 2) = (f * X.y + cy * X.z) * w 2 := by rw [a2]; field_simp
    have b1' : X.z * (f * w 0 + cx' * w 2 + tx * w 3) = (f * X.x + cx' * X.z + tx) * w 2 := by rw [b1]; field_simp
    have b2' : X.z * (f * w 1 + cy' * w 2 + ty * w 3) = (f * X.y + cy' * X.z + ty) * w 2 := by rw [b2]; field_simp
    have w0 : w 0 = w 2 / X.z * X.x := by
      have := mul_left_cancel₀ hf (show f * (w 0 * X.z) = f * (w 2 * X.x) by linear_combination a1')
      rw [div_mul_eq_mul_div, eq_div_iff hz, this]
    have w1 : w 1 = w 2 / X.z * X.y := by
      have := mul_left_cancel₀ hf (show f * (w 1 * X.z) = f * (w 2 * X.y) by linear_combination a2')
      rw [div_mul_eq_mul_div, eq_div_iff hz, this]
    have w3 : w 3 = w 2 / X.z := by
      rw [eq_div_iff hz]
      rcases ht with ht | ht
      · exact mul_left_cancel₀ ht (by linear_combination b1' - a1')
      · exact mul_left_cancel₀ ht (by linear_combination b2' - a2')
    refine ⟨w 2 / X.z, ?_⟩
    funext i
    fin_cases i
    · simpa using w0
    · simpa using w1
    · simp; field_simp
    · simpa using w3
  exact ⟨C94_least_squares svd6 x1 x2 P1 P2 X (hsvd6 _) h1 h2 hu, C94_direct_linear svd4 x1 x2 P1 P2 X (hsvd4 _) h1 h2 hu⟩

example : ∃ (svd6 : Matrix (Fin 6) (Fin 6) ℝ → Fin 6 → ℝ) (svd4 : Matrix (Fin 4) (Fin 4) ℝ → Fin 4 → ℝ),
    (∀ M, LastSingular M (svd6 M)) ∧ ∀ M, LastSingular M (svd4 M) := by
  choose s6 h6 using fun M : Matrix (Fin 6) (Fin 6) ℝ => exists_last M
  choose s4 h4 using fun M : Matrix (Fin 4) (Fin 4) ℝ => exists_last M
  exact ⟨s6, s4, h6, h4⟩

end Oplab.Props
