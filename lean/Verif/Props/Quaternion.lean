import Verif.Model.Quaternion
import Verif.Spec.Quaternion
import Verif.Props.SensorFrom
import Mathlib.Tactic.LinearCombination
import Mathlib.Tactic.FieldSimp
import Mathlib.Tactic.Positivity

/-! # C183, C184: orientations given as quaternions -/

namespace Oplab.Props
open Spec Real Quaternion

private theorem eps_pos : 0 < quatEps := by unfold quatEps; positivity

private theorem eps_small : quatEps ≤ 1 / 2 := by unfold quatEps; norm_num

/-- What is used of a rotation matrix. -/
private structure IsTurn (m : V3 (V3 ℝ)) : Prop where
  c00 : m.x.x ^ 2 + m.y.x ^ 2 + m.z.x ^ 2 = 1
  r1 : m.y.x ^ 2 + m.y.y ^ 2 + m.y.z ^ 2 = 1
  r2 : m.z.x ^ 2 + m.z.y ^ 2 + m.z.z ^ 2 = 1
  o01 : m.x.x * m.x.y + m.y.x * m.y.y + m.z.x * m.z.y = 0
  o02 : m.x.x * m.x.z + m.y.x * m.y.z + m.z.x * m.z.z = 0
  k01 : m.x.y = m.y.z * m.z.x - m.y.x * m.z.z
  k02 : m.x.z = m.y.x * m.z.y - m.y.y * m.z.x
  k22 : m.z.z = m.x.x * m.y.y - m.x.y * m.y.x
  k21 : m.z.y = m.x.z * m.y.x - m.x.x * m.y.z

/-- The product of a matrix, given by its rows, with a vector. -/
private def apply3 (m : V3 (V3 ℝ)) (v : V3 ℝ) : V3 ℝ :=
  ⟨m.x.x * v.x + m.x.y * v.y + m.x.z * v.z, m.y.x * v.x + m.y.y * v.y + m.y.z * v.z, m.z.x * v.x + m.z.y * v.y + m.z.z * v.z⟩

private theorem quatMatrix_form (q : RosQuat) (h : quatEps ≤ q.sq) :
    quatMatrix q = ⟨⟨1 - 2 * (q.y ^ 2 + q.z ^ 2) / q.sq, 2 * (q.x * q.y - q.z * q.w) / q.sq, 2 * (q.x * q.z + q.y * q.w) / q.sq⟩,
      ⟨2 * (q.x * q.y + q.z * q.w) / q.sq, 1 - 2 * (q.x ^ 2 + q.z ^ 2) / q.sq, 2 * (q.y * q.z - q.x * q.w) / q.sq⟩,
      ⟨2 * (q.x * q.z - q.y * q.w) / q.sq, 2 * (q.y * q.z + q.x * q.w) / q.sq, 1 - 2 * (q.x ^ 2 + q.y ^ 2) / q.sq⟩⟩ := by
  have hp : 0 < q.sq := lt_of_lt_of_le eps_pos h
  have hk : √(2 / q.sq) * √(2 / q.sq) = 2 / q.sq := Real.mul_self_sqrt (by positivity)
  unfold quatMatrix
  rw [if_neg (not_lt.mpr h)]
  simp only
  generalize √(2 / q.sq) = k at hk
  simp only [V3.mk.injEq]
  refine ⟨⟨?_, ?_, ?_⟩, ⟨?_, ?_, ?_⟩, ?_, ?_, ?_⟩
  · linear_combination (-q.y ^ 2 - q.z ^ 2) * hk
  · linear_combination (q.x * q.y - q.z * q.w) * hk
  · linear_combination (q.x * q.z + q.y * q.w) * hk
  · linear_combination (q.x * q.y + q.z * q.w) * hk
  · linear_combination (-q.x ^ 2 - q.z ^ 2) * hk
  · linear_combination (q.y * q.z - q.x * q.w) * hk
  · linear_combination (q.x * q.z - q.y * q.w) * hk
  · linear_combination (q.y * q.z + q.x * q.w) * hk
  · linear_combination (-q.x ^ 2 - q.y ^ 2) * hk

private theorem quatMatrix_turn (q : RosQuat) (h : quatEps ≤ q.sq) : IsTurn (quatMatrix q) := by
  have hp : q.sq ≠ 0 := (lt_of_lt_of_le eps_pos h).ne'
  rw [quatMatrix_form q h]
  have e : q.sq = q.x * q.x + q.y * q.y + q.z * q.z + q.w * q.w := rfl
  constructor <;> simp only <;> field_simp <;> rw [e] <;> ring

private theorem apply_turned (q : RosQuat) (h : quatEps ≤ q.sq) (v : V3 ℝ) :
    apply3 (quatMatrix q) v = turned (hamilton q.x q.y q.z q.w) v := by
  have hp : q.sq ≠ 0 := (lt_of_lt_of_le eps_pos h).ne'
  have e : q.sq = q.x * q.x + q.y * q.y + q.z * q.z + q.w * q.w := rfl
  have hn : normSq (hamilton q.x q.y q.z q.w) = q.sq := by
    rw [Quaternion.normSq_def']
    simp only [hamilton, e]
    ring
  rw [quatMatrix_form q h]
  unfold turned apply3
  rw [Quaternion.inv_def, hn]
  simp only [Quaternion.imI_mul, Quaternion.imJ_mul, Quaternion.imK_mul, Quaternion.re_mul, Quaternion.imI_smul,
    Quaternion.imJ_smul, Quaternion.imK_smul, Quaternion.re_smul, Quaternion.re_star, Quaternion.imI_star, Quaternion.imJ_star,
    Quaternion.imK_star, smul_eq_mul, V3.mk.injEq]
  simp only [hamilton]
  refine ⟨?_, ?_, ?_⟩ <;> field_simp <;> rw [e] <;> ring

private theorem atan2_cos_sin (y x r : ℝ) (hr : 0 < r) (h : x ^ 2 + y ^ 2 = r ^ 2) :
    cos (atan2 y x) = x / r ∧ sin (atan2 y x) = y / r := by
  have hn : ‖(⟨x, y⟩ : ℂ)‖ = r := by
    rw [Complex.norm_def, Complex.normSq_mk, ← Real.sqrt_sq hr.le]
    congr 1
    linarith
  have h1 := Complex.norm_mul_cos_arg ⟨x, y⟩
  have h2 := Complex.norm_mul_sin_arg ⟨x, y⟩
  rw [hn] at h1 h2
  simp only at h1 h2
  unfold atan2
  constructor
  · rw [eq_div_iff hr.ne', mul_comm]; exact h1
  · rw [eq_div_iff hr.ne', mul_comm]; exact h2

private theorem deg (a : ℝ) : a * (180 / π) * degToRad = a := by
  unfold degToRad
  field_simp

/-- Away from the vertical the angles give back the matrix. -/
private theorem euler_exact (m : V3 (V3 ℝ)) (hm : IsTurn m) (hc : quatEps < √(m.x.x * m.x.x + m.y.x * m.y.x)) (v : V3 ℝ) :
    bodyToInertial (toDegrees (eulerFromMatrix m)).x (toDegrees (eulerFromMatrix m)).y (toDegrees (eulerFromMatrix m)).z v
      = apply3 m v := by
  obtain ⟨⟨a, b, d⟩, ⟨e, f, g⟩, ⟨i, j, k⟩⟩ := m
  obtain ⟨c00, r1, r2, o01, o02, k01, k02, k22, k21⟩ := hm
  unfold eulerFromMatrix
  simp only at *
  have hc2 : √(a * a + e * e) ^ 2 = a * a + e * e := Real.sq_sqrt (add_nonneg (mul_self_nonneg _) (mul_self_nonneg _))
  rw [if_pos hc]
  generalize √(a * a + e * e) = c at *
  have cp : 0 < c := lt_trans eps_pos hc
  obtain ⟨x1, x2⟩ := atan2_cos_sin j k c cp (by linear_combination r2 - c00 - hc2)
  obtain ⟨y1, y2⟩ := atan2_cos_sin (-i) c 1 one_pos (by linear_combination c00 + hc2)
  obtain ⟨z1, z2⟩ := atan2_cos_sin e a c cp (by linear_combination -hc2)
  have cn : c ≠ 0 := cp.ne'
  simp only [bodyToInertial, toDegrees, apply3, deg, x1, x2, y1, y2, z1, z2, V3.mk.injEq]
  have g1 : -(e / c) * (k / c) + a / c * (-i / 1) * (j / c) = b := by
    field_simp
    linear_combination -b * hc2 - e * k22 - a * o01
  have g2 : e / c * (j / c) + a / c * (k / c) * (-i / 1) = d := by
    field_simp
    linear_combination -d * hc2 + e * k21 - a * o02
  have g3 : a / c * (k / c) + j / c * (-i / 1) * (e / c) = f := by
    field_simp
    linear_combination -f * hc2 + a * k22 - e * o01
  have g4 : -(a / c) * (j / c) + e / c * (k / c) * (-i / 1) = g := by
    field_simp
    linear_combination -g * hc2 - a * k21 - e * o02
  rw [g1, g2, g3, g4]
  refine ⟨?_, ?_, ?_⟩ <;> field_simp

private theorem small_of_sq (x e : ℝ) (he : 0 ≤ e) (h : x ^ 2 ≤ e ^ 2) : |x| ≤ e := by
  rw [← sq_abs] at h
  exact le_of_sq_le_sq h he

private theorem row_near (p q r a b d E : ℝ) (v : V3 ℝ) (hp : |p - a| ≤ E) (hq : |q - b| ≤ E) (hr : |r - d| ≤ E) :
    |p * v.x + q * v.y + r * v.z - (a * v.x + b * v.y + d * v.z)| ≤ E * size1 v := by
  have e : p * v.x + q * v.y + r * v.z - (a * v.x + b * v.y + d * v.z) = (p - a) * v.x + (q - b) * v.y + (r - d) * v.z := by ring
  rw [e]
  have h1 := mul_le_mul_of_nonneg_right hp (abs_nonneg v.x)
  have h2 := mul_le_mul_of_nonneg_right hq (abs_nonneg v.y)
  have h3 := mul_le_mul_of_nonneg_right hr (abs_nonneg v.z)
  rw [← abs_mul] at h1 h2 h3
  have := abs_add_le ((p - a) * v.x + (q - b) * v.y) ((r - d) * v.z)
  have := abs_add_le ((p - a) * v.x) ((q - b) * v.y)
  unfold size1
  linarith

private theorem mul_le (x y X Y : ℝ) (hx : |x| ≤ X) (hy : |y| ≤ Y) : |x * y| ≤ X * Y := by
  rw [abs_mul]
  exact mul_le_mul hx hy (abs_nonneg _) ((abs_nonneg _).trans hx)

private theorem sub_le (x y X Y : ℝ) (hx : |x| ≤ X) (hy : |y| ≤ Y) : |x - y| ≤ X + Y := by
  have := abs_sub x y
  linarith

/-- Close to the vertical: the entries. -/
private theorem entries_near (a b d e f g i j k c ρ ε : ℝ) (hε : 0 < ε) (hs : ε ≤ 1 / 2) (hc0 : 0 ≤ c) (hce : c ≤ ε)
    (hc2 : c ^ 2 = a * a + e * e) (c00 : a ^ 2 + e ^ 2 + i ^ 2 = 1) (r1 : e ^ 2 + f ^ 2 + g ^ 2 = 1) (r2 : i ^ 2 + j ^ 2 + k ^ 2 = 1)
    (k01 : b = g * i - e * k) (k02 : d = e * j - f * i) (hρp : 0 < ρ) (hr2 : ρ ^ 2 = f ^ 2 + g ^ 2) :
    (|c - a| ≤ 2 * ε ∧ |i * (g / ρ) - b| ≤ 2 * ε ∧ |-(f / ρ * i) - d| ≤ 2 * ε) ∧
    (|0 - e| ≤ 2 * ε ∧ |f / ρ - f| ≤ 2 * ε ∧ |g / ρ - g| ≤ 2 * ε) ∧
    (|c * -(g / ρ) - j| ≤ 2 * ε ∧ |c * (f / ρ) - k| ≤ 2 * ε) := by
  have hcε : c ^ 2 ≤ ε ^ 2 := pow_le_pow_left₀ hc0 hce 2
  have ha : |a| ≤ ε := small_of_sq a ε hε.le (by nlinarith only [sq_nonneg e, hcε, hc2])
  have he : |e| ≤ ε := small_of_sq e ε hε.le (by nlinarith only [sq_nonneg a, hcε, hc2])
  have hj : |j| ≤ ε := small_of_sq j ε hε.le (by nlinarith only [sq_nonneg k, hcε, hc2, c00, r2])
  have hk : |k| ≤ ε := small_of_sq k ε hε.le (by nlinarith only [sq_nonneg j, hcε, hc2, c00, r2])
  have he2 : e ^ 2 ≤ ε ^ 2 := by rw [← sq_abs e]; exact pow_le_pow_left₀ (abs_nonneg _) he 2
  have hi : |i| ≤ 1 := small_of_sq i 1 zero_le_one (by nlinarith only [sq_nonneg a, sq_nonneg e, c00])
  have hρ1 : ρ ≤ 1 := by nlinarith only [sq_nonneg e, hr2, r1, hρp]
  have hρε : 1 - ρ ≤ ε := by nlinarith only [hr2, r1, he2, hs, hε, hρ1, hρp]
  have hf : |f / ρ| ≤ 1 := by
    rw [abs_div, abs_of_pos hρp, div_le_one hρp]
    exact small_of_sq f ρ hρp.le (by nlinarith only [sq_nonneg g, hr2])
  have hg : |g / ρ| ≤ 1 := by
    rw [abs_div, abs_of_pos hρp, div_le_one hρp]
    exact small_of_sq g ρ hρp.le (by nlinarith only [sq_nonneg f, hr2])
  have ef : f = f / ρ * ρ := by field_simp
  have eg : g = g / ρ * ρ := by field_simp
  generalize f / ρ = f' at *
  generalize g / ρ = g' at *
  subst ef eg
  have hq : |1 - ρ| ≤ ε := by rw [abs_of_nonneg (by linarith)]; exact hρε
  have hcc : |c| ≤ ε := by rw [abs_of_nonneg hc0]; exact hce
  have h2 : ε * ε ≤ ε := by nlinarith only [hε, hs]
  refine ⟨⟨?_, ?_, ?_⟩, ⟨?_, ?_, ?_⟩, ?_, ?_⟩
  · have := sub_le c a ε ε hcc ha
    linarith
  · have e1 : i * g' - b = i * g' * (1 - ρ) - (-e) * k := by rw [k01]; ring
    have := sub_le _ _ _ _ (mul_le _ _ _ _ (mul_le _ _ _ _ hi hg) hq) (mul_le _ _ _ _ ((abs_neg _).le.trans he) hk)
    rw [e1]
    linarith
  · have e1 : -(f' * i) - d = -(f' * i * (1 - ρ)) - e * j := by rw [k02]; ring
    have := sub_le _ _ _ _ ((abs_neg _).le.trans (mul_le _ _ _ _ (mul_le _ _ _ _ hf hi) hq)) (mul_le _ _ _ _ he hj)
    rw [e1]
    linarith
  · rw [zero_sub, abs_neg]; linarith
  · have := mul_le _ _ _ _ hf hq
    rw [show f' - f' * ρ = f' * (1 - ρ) by ring]
    linarith
  · have := mul_le _ _ _ _ hg hq
    rw [show g' - g' * ρ = g' * (1 - ρ) by ring]
    linarith
  · have := sub_le _ _ _ _ (mul_le _ _ _ _ hcc ((abs_neg _).le.trans hg)) hj
    linarith
  · have := sub_le _ _ _ _ (mul_le _ _ _ _ hcc hf) hk
    linarith

/-- Close to the vertical the angles give nearly the matrix. -/
private theorem euler_near (m : V3 (V3 ℝ)) (hm : IsTurn m) (hc : ¬ quatEps < √(m.x.x * m.x.x + m.y.x * m.y.x)) (v : V3 ℝ) :
    Near3 (2 * quatEps * size1 v) (bodyToInertial (toDegrees (eulerFromMatrix m)).x (toDegrees (eulerFromMatrix m)).y
      (toDegrees (eulerFromMatrix m)).z v) (apply3 m v) := by
  obtain ⟨⟨a, b, d⟩, ⟨e, f, g⟩, ⟨i, j, k⟩⟩ := m
  obtain ⟨c00, r1, r2, o01, o02, k01, k02, k22, k21⟩ := hm
  unfold eulerFromMatrix
  simp only at *
  have hc2 : √(a * a + e * e) ^ 2 = a * a + e * e := Real.sq_sqrt (add_nonneg (mul_self_nonneg _) (mul_self_nonneg _))
  have hc0 : 0 ≤ √(a * a + e * e) := Real.sqrt_nonneg _
  rw [if_neg hc]
  generalize √(a * a + e * e) = c at *
  have hce : c ≤ quatEps := not_lt.mp hc
  have hs := eps_small
  have hp := eps_pos
  generalize quatEps = ε at *
  have hcε : c ^ 2 ≤ ε ^ 2 := pow_le_pow_left₀ hc0 hce 2
  have hpos : 0 < f ^ 2 + g ^ 2 := by nlinarith only [hcε, hc2, r1, sq_nonneg a, hs, hp]
  have hρp : 0 < √(f ^ 2 + g ^ 2) := Real.sqrt_pos.mpr hpos
  have hr2 : √(f ^ 2 + g ^ 2) ^ 2 = f ^ 2 + g ^ 2 := Real.sq_sqrt hpos.le
  generalize √(f ^ 2 + g ^ 2) = ρ at *
  obtain ⟨⟨e1, e2, e3⟩, ⟨e4, e5, e6⟩, e7, e8⟩ := entries_near a b d e f g i j k c ρ ε hp hs hc0 hce hc2 c00 r1 r2 k01 k02 hρp hr2
  obtain ⟨x1, x2⟩ := atan2_cos_sin (-g) f ρ hρp (by linear_combination -hr2)
  obtain ⟨y1, y2⟩ := atan2_cos_sin (-i) c 1 one_pos (by linear_combination c00 + hc2)
  simp only [bodyToInertial, toDegrees, apply3, deg, x1, x2, y1, y2, zero_mul, cos_zero, sin_zero, Near3]
  refine ⟨?_, ?_, ?_⟩
  · convert row_near _ _ _ _ _ _ _ v e1 e2 e3 using 2
    ring
  · convert row_near _ _ _ _ _ _ _ v e4 e5 e6 using 2
    ring
  · convert row_near _ _ _ i _ _ _ v (show |i - i| ≤ 2 * ε by rw [sub_self, abs_zero]; linarith) e7 e8 using 2
    ring

/-- C183: for every quaternion that is not (nearly) zero the angles recorded turn every vector as the quaternion does, up to a
relative error of 2^-49. -/
theorem C183_turns (q : RosQuat) (h : quatEps ≤ q.sq) (v : V3 ℝ) :
    Near3 (2 * quatEps * size1 v)
      (bodyToInertial (toDegrees (eulerFromQuat q)).x (toDegrees (eulerFromQuat q)).y (toDegrees (eulerFromQuat q)).z v)
      (turned (hamilton q.x q.y q.z q.w) v) := by
  rw [← apply_turned q h]
  unfold eulerFromQuat
  by_cases hc : quatEps < √((quatMatrix q).x.x * (quatMatrix q).x.x + (quatMatrix q).y.x * (quatMatrix q).y.x)
  · rw [euler_exact _ (quatMatrix_turn q h) hc]
    have := eps_pos
    have : 0 ≤ 2 * quatEps * size1 v := by unfold size1; positivity
    exact ⟨by rwa [sub_self, abs_zero], by rwa [sub_self, abs_zero], by rwa [sub_self, abs_zero]⟩
  · exact euler_near _ (quatMatrix_turn q h) hc v

/-- C183: without error unless the vehicle points straight up or down (its nose has nearly no horizontal part). -/
theorem C183_exact (q : RosQuat) (h : quatEps ≤ q.sq)
    (hv : quatEps ^ 2 < (turned (hamilton q.x q.y q.z q.w) ⟨1, 0, 0⟩).x ^ 2 + (turned (hamilton q.x q.y q.z q.w) ⟨1, 0, 0⟩).y ^ 2)
    (v : V3 ℝ) :
    bodyToInertial (toDegrees (eulerFromQuat q)).x (toDegrees (eulerFromQuat q)).y (toDegrees (eulerFromQuat q)).z v
      = turned (hamilton q.x q.y q.z q.w) v := by
  rw [← apply_turned q h] at hv ⊢
  unfold eulerFromQuat
  refine euler_exact _ (quatMatrix_turn q h) ?_ v
  rw [Real.lt_sqrt eps_pos.le]
  simp only [apply3, mul_one, mul_zero, add_zero] at hv
  nlinarith only [hv]

private theorem arg_range (y x : ℝ) : -180 < atan2 y x * (180 / π) ∧ atan2 y x * (180 / π) ≤ 180 := by
  have h1 := Complex.neg_pi_lt_arg ⟨x, y⟩
  have h2 := Complex.arg_le_pi ⟨x, y⟩
  unfold atan2
  have hp := Real.pi_pos
  constructor
  · rw [← mul_div_assoc, lt_div_iff₀ hp]
    nlinarith
  · rw [← mul_div_assoc, div_le_iff₀ hp]
    nlinarith

private theorem arg_range_right (y x : ℝ) (hx : 0 ≤ x) : -90 ≤ atan2 y x * (180 / π) ∧ atan2 y x * (180 / π) ≤ 90 := by
  have h := abs_le.mp (Complex.abs_arg_le_pi_div_two_iff.mpr (show 0 ≤ (⟨x, y⟩ : ℂ).re from hx))
  unfold atan2
  have hp := Real.pi_pos
  constructor
  · rw [← mul_div_assoc, le_div_iff₀ hp]
    nlinarith [h.1]
  · rw [← mul_div_assoc, div_le_iff₀ hp]
    nlinarith [h.2]

/-- Angles as they are recorded. -/
def AnglesInRange (a : V3 ℝ) : Prop := -180 < a.x ∧ a.x ≤ 180 ∧ -90 ≤ a.y ∧ a.y ≤ 90 ∧ 0 ≤ a.z ∧ a.z < 360

private theorem euler_range (m : V3 (V3 ℝ)) : -180 < (toDegrees (eulerFromMatrix m)).x ∧ (toDegrees (eulerFromMatrix m)).x ≤ 180 ∧
    -90 ≤ (toDegrees (eulerFromMatrix m)).y ∧ (toDegrees (eulerFromMatrix m)).y ≤ 90 ∧
    -180 < (toDegrees (eulerFromMatrix m)).z ∧ (toDegrees (eulerFromMatrix m)).z ≤ 180 := by
  unfold eulerFromMatrix toDegrees
  simp only
  split_ifs
  · exact ⟨(arg_range _ _).1, (arg_range _ _).2, (arg_range_right _ _ (Real.sqrt_nonneg _)).1, (arg_range_right _ _ (Real.sqrt_nonneg _)).2,
      (arg_range _ _).1, (arg_range _ _).2⟩
  · exact ⟨(arg_range _ _).1, (arg_range _ _).2, (arg_range_right _ _ (Real.sqrt_nonneg _)).1, (arg_range_right _ _ (Real.sqrt_nonneg _)).2,
      by norm_num, by norm_num⟩

private theorem b2i_zero (a : V3 ℝ) : bodyToInertial 0 0 0 a = a := by
  simp [bodyToInertial]

private theorem b2i_turn (r p y : ℝ) (v : V3 ℝ) : bodyToInertial r p (y + 360) v = bodyToInertial r p y v := by
  have e : (y + 360) * degToRad = y * degToRad + 2 * π := by unfold degToRad; ring
  simp only [bodyToInertial, e, cos_add_two_pi, sin_add_two_pi]

private theorem offset_zero (a : V3 ℝ) (h : -180 < a.z ∧ a.z ≤ 180) :
    orientOffset 0 a = { a with z := if a.z < 0 then a.z + 360 else a.z } := by
  unfold orientOffset wrapHeading
  rw [b2i_zero]
  simp only
  rw [if_neg (show ¬ a.z > 360 by linarith)]

private theorem bag_one (tz : ℝ) (s : OrientState) (ms : List (RosQuat × V3 ℝ × ℝ)) :
    (bagMessages (orientObject 0 tz) false s (ms.map fun m => imuMsg m.1 m.2.1 m.2.2)).2
      = ms.map fun m => (m.2.2 - tz, orientOffset 0 (toDegrees (eulerFromQuat m.1)),
          orientStdOffset 0 (toDegrees ⟨√m.2.1.x, √m.2.1.y, √m.2.1.z⟩)) := by
  induction ms generalizing s with
  | nil => rfl
  | cons m ms ih =>
    simp only [List.map_cons, bagMessages, orientObject, orientFromRos, imuMsg, Bool.true_eq_false, if_false, Option.isSome_some,
      Bool.and_self, if_true, Bool.false_eq_true, Option.getD_some]
    rw [← ih]
    rfl

/-- C183: for a sensor that is mounted in line with the vehicle: every message of the bags gives one record, in order, at its time, with
angles in their usual ranges, which turn vectors as the quaternion does. -/
theorem C183_records (tz : ℝ) (s : OrientState) (bags : List (List (RosQuat × V3 ℝ × ℝ))) :
    List.Forall₂ (fun m r => r.1 = m.2.2 - tz ∧ AnglesInRange r.2.1 ∧
        (quatEps ≤ m.1.sq → ∀ v, Near3 (2 * quatEps * size1 v) (bodyToInertial r.2.1.x r.2.1.y r.2.1.z v)
          (turned (hamilton m.1.x m.1.y m.1.z m.1.w) v)))
      bags.flatten (rosWorker (orientObject 0 tz) false s (bags.map (·.map fun m => imuMsg m.1 m.2.1 m.2.2))) := by
  induction bags generalizing s with
  | nil => exact List.Forall₂.nil
  | cons b bags ih =>
    simp only [List.map_cons, List.flatten_cons, rosWorker]
    refine List.rel_append ?_ (ih _)
    rw [bag_one]
    clear ih
    induction b with
    | nil => exact List.Forall₂.nil
    | cons m b ih =>
      refine List.Forall₂.cons ⟨rfl, ?_, ?_⟩ ih
      · obtain ⟨h1, h2, h3, h4, h5, h6⟩ := euler_range (quatMatrix m.1)
        unfold eulerFromQuat
        simp only
        rw [offset_zero _ ⟨h5, h6⟩]
        refine ⟨h1, h2, h3, h4, ?_, ?_⟩ <;> simp only <;> split_ifs <;> linarith
      · intro h v
        obtain ⟨-, -, -, -, h5, h6⟩ := euler_range (quatMatrix m.1)
        simp only
        rw [offset_zero (toDegrees (eulerFromQuat m.1)) ⟨h5, h6⟩]
        have := C183_turns m.1 h v
        simp only
        split_ifs
        · rw [b2i_turn]; exact this
        · exact this

/-- C183: only the ratio of the four numbers matters, not their common factor or sign. -/
theorem C183_scale (q : RosQuat) (k : ℝ) (h : quatEps ≤ q.sq) (hk : quatEps ≤ (⟨k * q.x, k * q.y, k * q.z, k * q.w⟩ : RosQuat).sq) :
    eulerFromQuat ⟨k * q.x, k * q.y, k * q.z, k * q.w⟩ = eulerFromQuat q := by
  have hp : q.sq ≠ 0 := (lt_of_lt_of_le eps_pos h).ne'
  have e : (⟨k * q.x, k * q.y, k * q.z, k * q.w⟩ : RosQuat).sq = k ^ 2 * q.sq := by unfold RosQuat.sq; ring
  have hk0 : k ≠ 0 := by
    rintro rfl
    rw [e] at hk
    have := eps_pos
    norm_num at hk
    linarith
  unfold eulerFromQuat
  rw [quatMatrix_form q h, quatMatrix_form _ hk, e]
  simp only
  congr 1
  simp only [V3.mk.injEq]
  refine ⟨⟨?_, ?_, ?_⟩, ⟨?_, ?_, ?_⟩, ?_, ?_, ?_⟩ <;> field_simp

/-- The hypotheses of C183: a roll of 90 degrees, not normalised. -/
example : quatEps ≤ (⟨2, 0, 0, 2⟩ : RosQuat).sq := by
  have := eps_small
  unfold RosQuat.sq
  norm_num
  linarith

/-- The hypothesis of `C183_exact`: the nose of the vehicle stays horizontal when it rolls. -/
example : quatEps ^ 2 < (turned (hamilton 2 0 0 2) ⟨1, 0, 0⟩).x ^ 2 + (turned (hamilton 2 0 0 2) ⟨1, 0, 0⟩).y ^ 2 := by
  have h : quatEps ≤ (⟨2, 0, 0, 2⟩ : RosQuat).sq := by
    have := eps_small
    unfold RosQuat.sq
    norm_num
    linarith
  have := apply_turned ⟨2, 0, 0, 2⟩ h ⟨1, 0, 0⟩
  simp only at this
  rw [← this, quatMatrix_form _ h]
  have := eps_small
  have := eps_pos
  norm_num [apply3, RosQuat.sq]
  rw [abs_of_pos this]
  linarith

/-! ## C184 -/

/-- The full claim: a message whose first covariance is -1, which says that it holds no orientation, gives no record. -/
def NoOrientationNoRecord : Prop := ∀ (yaw tz : ℝ) (s : OrientState) (q : RosQuat) (variance : V3 ℝ) (stamp : ℝ), variance.x = -1 →
  rosWorker (orientObject yaw tz) false s [[imuMsg q variance stamp]] = []

/-- C184: the claim is false for every such message: it gives a record like any other. -/
theorem C184_record_false (tz : ℝ) (s : OrientState) (q : RosQuat) (variance : V3 ℝ) (stamp : ℝ) :
    ¬ rosWorker (orientObject 0 tz) false s [[imuMsg q variance stamp]] = [] := by
  intro h
  have := C183_records tz s [[(q, variance, stamp)]]
  simp only [List.map_cons, List.map_nil] at this
  rw [h] at this
  cases this

/-- C184: the claim is false. -/
theorem C184_false : ¬ NoOrientationNoRecord := fun h =>
  C184_record_false 0 ⟨none, none, none⟩ ⟨0, 0, 0, 0⟩ ⟨-1, 0, 0⟩ 0 (h 0 0 _ _ _ _ rfl)

/-- C184: the record of a message with the zero quaternion says that the vehicle is level and heads north. -/
theorem C184_level (tz : ℝ) (s : OrientState) (variance : V3 ℝ) (stamp : ℝ) :
    (rosWorker (orientObject 0 tz) false s [[imuMsg ⟨0, 0, 0, 0⟩ variance stamp]]).map (fun r => (r.1, r.2.1))
      = [(stamp - tz, ⟨0, 0, 0⟩)] := by
  have hb := bag_one tz s [(⟨0, 0, 0, 0⟩, variance, stamp)]
  simp only [List.map_cons, List.map_nil] at hb
  have e : eulerFromQuat ⟨0, 0, 0, 0⟩ = ⟨0, 0, 0⟩ := by
    unfold eulerFromQuat quatMatrix
    rw [if_pos (by unfold RosQuat.sq; simpa using eps_pos)]
    unfold eulerFromMatrix atan2
    have h1 := eps_small
    have h0 : Complex.arg ⟨1, 0⟩ = 0 := Complex.arg_one
    rw [if_pos (by norm_num; linarith)]
    simp [h0]
  rw [e] at hb
  simp only [rosWorker, hb, List.append_nil, List.map_cons, List.map_nil]
  rw [offset_zero _ (by simp [toDegrees])]
  simp [toDegrees]

end Oplab.Props
