import Verif.Spec.Covariance
import Mathlib.LinearAlgebra.Matrix.ToLinearEquiv
import Mathlib.LinearAlgebra.Matrix.DotProduct
import Mathlib.Tactic.Linarith
import Mathlib.Tactic.Positivity
import Mathlib.Tactic.Abel
import Mathlib.Tactic.NoncommRing

/-! Elementary facts about covariance matrices. -/

namespace Oplab.Spec
open Matrix

variable {n m : Type} [Fintype n] [Fintype m]

theorem quad_congr (A : Matrix m n ℝ) (P : Matrix n n ℝ) (v : m → ℝ) :
    v ⬝ᵥ ((A * P * Aᵀ) *ᵥ v) = (Aᵀ *ᵥ v) ⬝ᵥ (P *ᵥ (Aᵀ *ᵥ v)) := by
  rw [← mulVec_mulVec, ← mulVec_mulVec, dotProduct_mulVec, ← mulVec_transpose]

theorem IsCov.congr {P : Matrix n n ℝ} (h : IsCov P) (A : Matrix m n ℝ) : IsCov (A * P * Aᵀ) := by
  refine ⟨?_, fun v => ?_⟩
  · rw [transpose_mul, transpose_mul, transpose_transpose, h.1, Matrix.mul_assoc]
  · rw [quad_congr]; exact h.2 _

theorem IsCov.add {P P' : Matrix n n ℝ} (h : IsCov P) (h' : IsCov P') : IsCov (P + P') := by
  refine ⟨by rw [transpose_add, h.1, h'.1], fun v => ?_⟩
  rw [add_mulVec, dotProduct_add]
  exact add_nonneg (h.2 v) (h'.2 v)

theorem IsCov.smul {P : Matrix n n ℝ} (h : IsCov P) {c : ℝ} (hc : 0 ≤ c) : IsCov (c • P) := by
  refine ⟨by rw [transpose_smul, h.1], fun v => ?_⟩
  rw [smul_mulVec, dotProduct_smul]
  exact mul_nonneg hc (h.2 v)

theorem IsCov.diag_nonneg [DecidableEq n] {P : Matrix n n ℝ} (h : IsCov P) (i : n) : 0 ≤ P i i := by
  have := h.2 (Pi.single i 1)
  simpa using this

theorem dotProduct_mulVec_comm {P : Matrix n n ℝ} (h : Pᵀ = P) (u v : n → ℝ) :
    u ⬝ᵥ (P *ᵥ v) = v ⬝ᵥ (P *ᵥ u) := by
  rw [dotProduct_mulVec, ← mulVec_transpose, h, dotProduct_comm]

/-- A symmetric matrix with positive quadratic form is invertible. -/
theorem det_ne_zero_of_pos [DecidableEq n] {S : Matrix n n ℝ}
    (h : ∀ v : n → ℝ, v ≠ 0 → 0 < v ⬝ᵥ (S *ᵥ v)) : S.det ≠ 0 := by
  intro hd
  obtain ⟨v, hv, h0⟩ := Matrix.exists_mulVec_eq_zero_iff.mpr hd
  have := h v hv
  rw [h0, dotProduct_zero] at this
  exact lt_irrefl _ this

/-- A covariance matrix with nonzero determinant has positive quadratic form. -/
theorem IsCov.pos_of_det [DecidableEq n] {P : Matrix n n ℝ} (h : IsCov P) (hd : P.det ≠ 0)
    (v : n → ℝ) (hv : v ≠ 0) : 0 < v ⬝ᵥ (P *ᵥ v) := by
  rcases (h.2 v).lt_or_eq with h1 | h1
  · exact h1
  exfalso
  have hPv : P *ᵥ v ≠ 0 := fun hc =>
    hd (Matrix.exists_mulVec_eq_zero_iff.mp ⟨v, hv, hc⟩)
  -- the quadratic form along `v + t w`, with `w = P v`, would become negative
  set w := P *ᵥ v with hw
  have hww : 0 < w ⬝ᵥ w := by
    rcases (show 0 ≤ w ⬝ᵥ w from Finset.sum_nonneg fun i _ => mul_self_nonneg _).lt_or_eq with h2 | h2
    · exact h2
    · exact absurd (dotProduct_self_eq_zero.mp h2.symm) hPv
  have hq : ∀ t : ℝ, 0 ≤ 2 * t * (w ⬝ᵥ w) + t ^ 2 * (w ⬝ᵥ (P *ᵥ w)) := by
    intro t
    have := h.2 (v + t • w)
    rw [mulVec_add, dotProduct_add, add_dotProduct, add_dotProduct, mulVec_smul, smul_dotProduct,
      dotProduct_smul, smul_dotProduct, dotProduct_smul, ← h1, ← hw,
      dotProduct_mulVec_comm h.1 v w, ← hw] at this
    simp only [smul_eq_mul] at this
    nlinarith [this]
  set a := w ⬝ᵥ w
  set b := w ⬝ᵥ (P *ᵥ w) with hb
  have hb0 : 0 ≤ b := h.2 w
  have := hq (-(a / (b + 1)))
  have hb1 : 0 < b + 1 := by linarith
  have hx : 0 < a / (b + 1) := div_pos hww hb1
  have hxb : a / (b + 1) * b ≤ a := by
    rw [div_mul_eq_mul_div, div_le_iff₀ hb1]
    nlinarith
  nlinarith

theorem IsCov.inv [DecidableEq n] {P : Matrix n n ℝ} (h : IsCov P) (hd : P.det ≠ 0) :
    IsCov P⁻¹ := by
  have hu : IsUnit P.det := isUnit_iff_ne_zero.mpr hd
  refine ⟨by rw [transpose_nonsing_inv, h.1], fun v => ?_⟩
  have := h.2 (P⁻¹ *ᵥ v)
  rw [mulVec_mulVec, mul_nonsing_inv _ hu, one_mulVec] at this
  rwa [dotProduct_comm]

end Oplab.Spec
