import Verif.Spec.CellMatrix
import Mathlib.Tactic.LinearCombination
import Mathlib.Tactic.FieldSimp
import Mathlib.Tactic.Positivity

/-! # C289: cells with three lengths and angles -/

namespace Oplab.Props
open Oplab Spec Real

private theorem len_of (v : V3 ℝ) (a : ℝ) (ha : 0 ≤ a) (h : v.x * v.x + v.y * v.y + v.z * v.z = a * a) : len v = a := by
  unfold len Spec.dot
  rw [h, Real.sqrt_mul_self ha]

private theorem cell_edges (p q r : V3 ℝ) : edgesOf ⟨p, q, r⟩ = ⟨⟨p.x, q.x, r.x⟩, ⟨p.y, q.y, r.y⟩, ⟨p.z, q.z, r.z⟩⟩ := by
  simp [edgesOf, matVec]

private theorem sin_deg (d : ℝ) (h0 : 0 < d) (h1 : d < 180) : sin (radiansOf d) ≠ 0 := by
  apply ne_of_gt
  apply Real.sin_pos_of_pos_of_lt_pi
  · unfold radiansOf; positivity
  · unfold radiansOf
    rw [div_lt_iff₀ (by norm_num)]
    nlinarith [Real.pi_pos]

/-- **C289**: the columns of the matrix are edges with the lengths and angles asked for. -/
theorem C289_cell (a b c alpha beta gamma : ℝ) (m : V3 (V3 ℝ)) (ha : 0 ≤ a) (hb : 0 ≤ b) (hc : 0 ≤ c) (h1 : 0 < alpha ∧ alpha < 180)
    (h2 : 0 < beta ∧ beta < 180) (h : cellMatrix a b c alpha beta gamma = .ok m) : IsCell (edgesOf m) a b c alpha beta gamma := by
  have sa := sin_deg alpha h1.1 h1.2
  have sb := sin_deg beta h2.1 h2.2
  have pa := Real.sin_sq_add_cos_sq (radiansOf alpha)
  have pb := Real.sin_sq_add_cos_sq (radiansOf beta)
  have hco : (cos (radiansOf alpha) * cos (radiansOf beta) - cos (radiansOf gamma)) / (sin (radiansOf alpha) * sin (radiansOf beta))
      * (sin (radiansOf alpha) * sin (radiansOf beta)) = cos (radiansOf alpha) * cos (radiansOf beta) - cos (radiansOf gamma) :=
    div_mul_cancel₀ _ (mul_ne_zero sa sb)
  unfold cellMatrix at h
  simp only at h
  generalize (cos (radiansOf alpha) * cos (radiansOf beta) - cos (radiansOf gamma)) / (sin (radiansOf alpha) * sin (radiansOf beta)) = co at h hco
  split at h
  · cases h
  rename_i hn
  have hs := Real.mul_self_sqrt (not_lt.mp hn)
  cases h
  rw [cell_edges]
  change _ ∧ _ = b * c * cos (radiansOf alpha) ∧ _ = a * c * cos (radiansOf beta) ∧ _ = a * b * cos (radiansOf gamma)
  refine ⟨⟨len_of _ _ ha ?_, len_of _ _ hb ?_, len_of _ _ hc ?_⟩, ?_, ?_, ?_⟩
  · simp only
    linear_combination (a * a * sin (radiansOf beta) ^ 2) * hs + a * a * pb
  · simp only
    linear_combination b * b * pa
  · simp only
    ring
  · simp only [Spec.dot]
    ring
  · simp only [Spec.dot]
    ring
  · simp only [Spec.dot]
    linear_combination (-(a * b)) * hco

private theorem cauchy (x1 x2 x3 y1 y2 y3 : ℝ) :
    (x1 * y1 + x2 * y2 + x3 * y3) ^ 2 ≤ (y1 ^ 2 + y2 ^ 2 + y3 ^ 2) * (x1 ^ 2 + x2 ^ 2 + x3 ^ 2) := by
  have : (y1 ^ 2 + y2 ^ 2 + y3 ^ 2) * (x1 ^ 2 + x2 ^ 2 + x3 ^ 2) - (x1 * y1 + x2 * y2 + x3 * y3) ^ 2
      = (x1 * y2 - x2 * y1) ^ 2 + (x1 * y3 - x3 * y1) ^ 2 + (x2 * y3 - x3 * y2) ^ 2 := by ring
  have h : 0 ≤ (x1 * y2 - x2 * y1) ^ 2 + (x1 * y3 - x3 * y1) ^ 2 + (x2 * y3 - x3 * y2) ^ 2 := by positivity
  linarith

/-- **C289**: a cell is refused only if there is none with these angles. -/
theorem C289_refused (a b c alpha beta gamma : ℝ) (h1 : 0 < alpha ∧ alpha < 180) (h2 : 0 < beta ∧ beta < 180)
    (h : ∀ m, cellMatrix a b c alpha beta gamma ≠ .ok m) : ¬ ∃ e, IsCell e 1 1 1 alpha beta gamma := by
  rintro ⟨e, ⟨l1, l2, l3⟩, d1, d2, d3⟩
  have sa := sin_deg alpha h1.1 h1.2
  have sb := sin_deg beta h2.1 h2.2
  have pa := Real.sin_sq_add_cos_sq (radiansOf alpha)
  have pb := Real.sin_sq_add_cos_sq (radiansOf beta)
  have sq : ∀ v : V3 ℝ, len v = 1 → v.x * v.x + v.y * v.y + v.z * v.z = 1 := by
    intro v hv
    have : len v * len v = v.x * v.x + v.y * v.y + v.z * v.z := by
      unfold len Spec.dot
      exact Real.mul_self_sqrt (by nlinarith [mul_self_nonneg v.x, mul_self_nonneg v.y, mul_self_nonneg v.z])
    rw [← this, hv, one_mul]
  have q1 := sq _ l1
  have q2 := sq _ l2
  have q3 := sq _ l3
  rw [← radiansOf] at d1 d2 d3
  simp only [Spec.dot, one_mul] at d1 d2 d3
  unfold cellMatrix at h
  simp only at h
  split at h
  · rename_i hn
    have hp : 0 < (sin (radiansOf alpha) * sin (radiansOf beta)) ^ 2 := by positivity
    have hlt : (sin (radiansOf alpha) * sin (radiansOf beta)) ^ 2 < (cos (radiansOf alpha) * cos (radiansOf beta) - cos (radiansOf gamma)) ^ 2 := by
      have h3 : 1 < ((cos (radiansOf alpha) * cos (radiansOf beta) - cos (radiansOf gamma)) / (sin (radiansOf alpha) * sin (radiansOf beta))) ^ 2 := by
        rw [pow_two]; linarith
      rw [div_pow, lt_div_iff₀ hp] at h3
      linarith
    -- Gram: the parts of the first two edges across the third
    have key : (cos (radiansOf alpha) * cos (radiansOf beta) - cos (radiansOf gamma)) ^ 2 ≤
        sin (radiansOf alpha) ^ 2 * sin (radiansOf beta) ^ 2 := by
      have s1 : sin (radiansOf alpha) ^ 2 = 1 - cos (radiansOf alpha) ^ 2 := by linarith
      have s2 : sin (radiansOf beta) ^ 2 = 1 - cos (radiansOf beta) ^ 2 := by linarith
      rw [s1, s2]
      generalize cos (radiansOf alpha) = ca at d1
      generalize cos (radiansOf beta) = cb at d2
      generalize cos (radiansOf gamma) = cg at d3
      have u1 : (e.x.x - cb * e.z.x) ^ 2 + (e.x.y - cb * e.z.y) ^ 2 + (e.x.z - cb * e.z.z) ^ 2 = 1 - cb ^ 2 := by
        linear_combination q1 + cb ^ 2 * q3 - 2 * cb * d2
      have u2 : (e.y.x - ca * e.z.x) ^ 2 + (e.y.y - ca * e.z.y) ^ 2 + (e.y.z - ca * e.z.z) ^ 2 = 1 - ca ^ 2 := by
        linear_combination q2 + ca ^ 2 * q3 - 2 * ca * d1
      have u3 : (e.x.x - cb * e.z.x) * (e.y.x - ca * e.z.x) + (e.x.y - cb * e.z.y) * (e.y.y - ca * e.z.y)
          + (e.x.z - cb * e.z.z) * (e.y.z - ca * e.z.z) = cg - ca * cb := by
        linear_combination d3 - ca * d2 - cb * d1 + ca * cb * q3
      generalize e.x.x - cb * e.z.x = x1 at u1 u3
      generalize e.x.y - cb * e.z.y = x2 at u1 u3
      generalize e.x.z - cb * e.z.z = x3 at u1 u3
      generalize e.y.x - ca * e.z.x = y1 at u2 u3
      generalize e.y.y - ca * e.z.y = y2 at u2 u3
      generalize e.y.z - ca * e.z.z = y3 at u2 u3
      have : (ca * cb - cg) ^ 2 = (x1 * y1 + x2 * y2 + x3 * y3) ^ 2 := by rw [u3]; ring
      rw [this, ← u1, ← u2]
      have := cauchy x1 x2 x3 y1 y2 y3
      linarith
    rw [mul_pow] at hlt
    linarith
  · exact h _ rfl

/-- A rectangular cell meets the conditions. -/
example : ∃ m, cellMatrix 1 2 3 90 90 90 = .ok m := by
  have e : radiansOf 90 = π / 2 := by unfold radiansOf; ring
  unfold cellMatrix
  simp only [e, Real.cos_pi_div_two, Real.sin_pi_div_two]
  rw [if_neg (by norm_num)]
  exact ⟨_, rfl⟩

/-- Angles of 45, 45 and 180 degrees meet in no corner. -/
example : ∀ m, cellMatrix 1 1 1 45 45 180 ≠ .ok m := by
  have e : radiansOf 45 = π / 4 := by unfold radiansOf; ring
  have e2 : radiansOf 180 = π := by unfold radiansOf; ring
  have hs : √2 * √2 = (2 : ℝ) := Real.mul_self_sqrt (by norm_num)
  have hco : (√2 / 2 * (√2 / 2) - -1) / (√2 / 2 * (√2 / 2)) = (3 : ℝ) := by
    rw [show √2 / 2 * (√2 / 2) = (1 / 2 : ℝ) by linear_combination hs / 4]; norm_num
  intro m h
  unfold cellMatrix at h
  simp only [e, e2, Real.cos_pi_div_four, Real.sin_pi_div_four, Real.cos_pi, hco] at h
  norm_num at h
  cases h

end Oplab.Props
