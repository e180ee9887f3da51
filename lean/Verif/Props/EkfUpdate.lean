import Verif.Props.EkfCov
import Verif.Spec.EkfUpdate
import Mathlib.Tactic.FieldSimp

/-!
# C202 — a measurement is combined with the prediction in the best way
-/

namespace Oplab.Props
open Oplab Oplab.Spec Matrix Real Ix

/-- The components that a measurement observes. -/
private def obs (m : KMeas) : Fin m.indices.length → Ix := fun i => m.indices.get i

private theorem H_mul {k : Type} (m : KMeas) (M : Matrix Ix k ℝ) : m.H * M = M.submatrix (obs m) id := by
  ext i j
  simp [Matrix.mul_apply, KMeas.H, obs]

private theorem mul_Ht {k : Type} (m : KMeas) (M : Matrix k Ix ℝ) : M * m.Hᵀ = M.submatrix id (obs m) := by
  ext i j
  simp [Matrix.mul_apply, KMeas.H, obs]

private theorem obs_inj (m : KMeas) : Function.Injective (obs m) := by
  have hnd : m.indices.Nodup := (List.nodup_finRange 12).filter _
  intro i j h
  exact (List.Nodup.get_inj_iff hnd).mp h

private theorem R_eq (m : KMeas) (h : DiagonalNoise m) :
    m.R = diagonal fun i => usedVariance (m.cov (obs m i) (obs m i)) := by
  ext i j
  by_cases hij : i = j
  · subst hij
    simp only [KMeas.R, if_true, diagonal_apply_eq, usedVariance, obs]
    rcases lt_or_ge (m.cov (m.indices.get i) (m.indices.get i)) 0 with hc | hc
    · simp only [if_pos hc]
      split_ifs with h2
      · exact (max_eq_right h2.le).symm
      · exact (max_eq_left (not_lt.mp h2)).symm
    · simp only [if_neg (not_lt.mpr hc), abs_of_nonneg hc]
      split_ifs with h2
      · exact (max_eq_right h2.le).symm
      · exact (max_eq_left (not_lt.mp h2)).symm
  · rw [diagonal_apply_ne _ hij]
    simp only [KMeas.R, if_neg hij]
    exact h _ _ fun hc => hij (obs_inj m hc)

private theorem S_eq (P : KMat) (m : KMeas) (h : DiagonalNoise m) :
    m.S P = differenceCov P (obs m) fun i => usedVariance (m.cov (obs m i) (obs m i)) := by
  rw [KMeas.S, mul_Ht, H_mul, R_eq m h]
  rfl

private theorem gain_eq (P : KMat) (m : KMeas) :
    m.gain P = P.submatrix id (obs m) * (m.S P)⁻¹ := by rw [KMeas.gain, mul_Ht]

private theorem usedVariance_pos (c : ℝ) : 0 < usedVariance c := lt_of_lt_of_le (by norm_num) (le_max_right _ _)

/-- The matrix that picks components. -/
private def pick {n k : Type} [DecidableEq n] (o : k → n) : Matrix k n ℝ := fun i j => if j = o i then 1 else 0

private theorem pick_mul {n k l : Type} [Fintype n] [DecidableEq n] (o : k → n) (M : Matrix n l ℝ) :
    pick o * M = M.submatrix o id := by
  ext i j
  simp [Matrix.mul_apply, pick]

private theorem mul_pick {n k l : Type} [Fintype n] [DecidableEq n] (o : k → n) (M : Matrix l n ℝ) :
    M * (pick o)ᵀ = M.submatrix id o := by
  ext i j
  simp [Matrix.mul_apply, pick]

private theorem diff_cov {n k : Type} [Fintype n] [Fintype k] [DecidableEq k] [DecidableEq n] (P : Matrix n n ℝ) (hP : IsCov P)
    (o : k → n) (r : k → ℝ) (hr : ∀ i, 0 < r i) :
    (differenceCov P o r)ᵀ = differenceCov P o r ∧ ∀ v : k → ℝ, v ≠ 0 → 0 < v ⬝ᵥ (differenceCov P o r *ᵥ v) := by
  refine ⟨?_, fun v hv => ?_⟩
  · rw [differenceCov, transpose_add, transpose_submatrix, hP.1, diagonal_transpose]
  · have h1 : 0 ≤ v ⬝ᵥ (P.submatrix o o *ᵥ v) := by
      have e : P.submatrix o o = pick o * P * (pick o)ᵀ := by
        rw [pick_mul, mul_pick]
        rfl
      rw [e]
      exact (hP.congr (pick o)).2 v
    rw [differenceCov, add_mulVec, dotProduct_add]
    apply add_pos_of_nonneg_of_pos h1
    have e : v ⬝ᵥ (diagonal r *ᵥ v) = ∑ i, r i * (v i) ^ 2 := by
      simp only [dotProduct, mulVec_diagonal]
      exact Finset.sum_congr rfl fun i _ => by ring
    rw [e]
    obtain ⟨i, hi⟩ := Function.ne_iff.mp hv
    exact Finset.sum_pos' (fun i _ => mul_nonneg (hr i).le (sq_nonneg _))
      ⟨i, Finset.mem_univ _, mul_pos (hr i) (by simpa using sq_pos_of_ne_zero hi)⟩

/-- Completing the square: any weights `L` compared with `W`, where `W S = P_{·o}`. -/
private theorem correctedCov_sub {n k : Type} [Fintype n] [Fintype k] [DecidableEq k] (P : Matrix n n ℝ) (hP : Pᵀ = P)
    (o : k → n) (r : k → ℝ) (W L : Matrix n k ℝ) (hS : (differenceCov P o r)ᵀ = differenceCov P o r)
    (hW : W * differenceCov P o r = P.submatrix id o) :
    correctedCov P o r L = correctedCov P o r W + (L - W) * differenceCov P o r * (L - W)ᵀ := by
  have h1 : P.submatrix o id = differenceCov P o r * Wᵀ := by
    have := congrArg transpose hW
    rw [transpose_mul, hS, transpose_submatrix, hP] at this
    exact this.symm
  rw [correctedCov, correctedCov, h1, ← hW]
  rw [transpose_sub]
  simp only [Matrix.sub_mul, Matrix.mul_sub, Matrix.mul_assoc]
  abel

/-- C202: an accepted measurement changes the state by weights times the differences to the predicted values of the
measured components, and the covariance is the error covariance for these weights. No other weights give a smaller
uncertainty, in any direction, and no others give one as small. -/
theorem C202_update (e e' : Ekf) (m : KMeas) (he : CovOk e) (hm : DiagonalNoise m) (h : e.correct m = .ok e')
    (hd : mahalanobisSq e m < e.thr ^ 2) :
    let o : Fin m.indices.length → Ix := fun i => m.indices.get i
    let r := fun i => usedVariance (m.cov (o i) (o i))
    ∃ W : Matrix Ix (Fin m.indices.length) ℝ,
      e'.state = wrapState (e.state + W *ᵥ m.innovation e.state) ∧
      e'.cov = correctedCov e.cov o r W ∧
      (∀ L, CovLe e'.cov (correctedCov e.cov o r L)) ∧
      ∀ L, CovLe (correctedCov e.cov o r L) e'.cov → L = W := by
  intro o r
  have ho : o = obs m := rfl
  obtain ⟨hSt, hSp⟩ := diff_cov e.cov he.1 o r fun i => usedVariance_pos _
  have hS : m.S e.cov = differenceCov e.cov o r := S_eq e.cov m hm
  have hdet : (m.S e.cov).det ≠ 0 := by rw [hS]; exact det_ne_zero_of_pos hSp
  have hWS : m.gain e.cov * differenceCov e.cov o r = e.cov.submatrix id o := by
    rw [← hS, gain_eq, Matrix.mul_assoc, nonsing_inv_mul _ (isUnit_iff_ne_zero.mpr hdet), Matrix.mul_one, ho]
  have acc := C32_accepted e e' m h hd
  have hK : m.gain e.cov = e.cov * m.Hᵀ * (m.H * e.cov * m.Hᵀ + m.R)⁻¹ := by
    simp only [KMeas.gain, KMeas.S, Matrix.mul_assoc]
  simp only [← hK] at acc
  have hcov : e'.cov = correctedCov e.cov o r (m.gain e.cov) := by
    rw [acc.2.1]
    have hR : m.R = m.S e.cov - m.H * (e.cov * m.Hᵀ) := by rw [KMeas.S]; abel
    rw [hR, correctedCov, ← hS]
    have h1 : e.cov.submatrix o id = m.H * e.cov := (H_mul m e.cov).symm
    have h2 : e.cov.submatrix id o = e.cov * m.Hᵀ := (mul_Ht m e.cov).symm
    rw [h1, h2, transpose_sub, transpose_one, transpose_mul]
    simp only [Matrix.sub_mul, Matrix.mul_sub, Matrix.one_mul, Matrix.mul_one, Matrix.mul_assoc]
    abel
  refine ⟨m.gain e.cov, acc.1, hcov, fun L v => ?_, fun L hL => ?_⟩
  · rw [hcov, correctedCov_sub e.cov he.1.1 o r (m.gain e.cov) L hSt hWS, add_mulVec, dotProduct_add]
    have : IsCov (differenceCov e.cov o r) := by
      refine ⟨hSt, fun w => ?_⟩
      by_cases hw : w = 0
      · simp [hw]
      · exact (hSp w hw).le
    have := (this.congr (L - m.gain e.cov)).2 v
    linarith
  · rw [correctedCov_sub e.cov he.1.1 o r (m.gain e.cov) L hSt hWS, ← hcov] at hL
    by_contra hne
    have hne' : (L - m.gain e.cov)ᵀ ≠ 0 := by
      intro hz
      apply hne
      have := congrArg transpose hz
      rw [transpose_transpose, transpose_zero] at this
      exact sub_eq_zero.mp this
    obtain ⟨v, hv⟩ : ∃ v, (L - m.gain e.cov)ᵀ *ᵥ v ≠ 0 := by
      by_contra hall
      push Not at hall
      apply hne'
      ext i j
      have := congrFun (hall (Pi.single j 1)) i
      simpa using this
    have h1 := hL v
    rw [add_mulVec, dotProduct_add] at h1
    have h2 := hSp _ hv
    have h3 : v ⬝ᵥ ((L - m.gain e.cov) * differenceCov e.cov o r * (L - m.gain e.cov)ᵀ) *ᵥ v =
        ((L - m.gain e.cov)ᵀ *ᵥ v) ⬝ᵥ (differenceCov e.cov o r *ᵥ ((L - m.gain e.cov)ᵀ *ᵥ v)) := by
      rw [← mulVec_mulVec, ← mulVec_mulVec, dotProduct_mulVec, mulVec_transpose]
    linarith

/-- C202: the distance by which a measurement is judged is that of the differences to the predicted values of the
measured components, relative to their covariance. -/
theorem C202_distance (e : Ekf) (m : KMeas) (hm : DiagonalNoise m) :
    let o : Fin m.indices.length → Ix := fun i => m.indices.get i
    let r := fun i => usedVariance (m.cov (o i) (o i))
    mahalanobisSq e m = m.innovation e.state ⬝ᵥ ((differenceCov e.cov o r)⁻¹ *ᵥ m.innovation e.state) := by
  intro o r
  have hS : m.S e.cov = differenceCov e.cov o r := S_eq e.cov m hm
  rw [← hS, mahalanobisSq, KMeas.S, Matrix.mul_assoc]

/-- C202: a measurement of a single component, with its difference `δ` to the prediction: each component moves in
proportion to its covariance with the measured one, and all covariances are reduced accordingly. -/
theorem C202_single (e e' : Ekf) (m : KMeas) (he : CovOk e) (hm : DiagonalNoise m) (h : e.correct m = .ok e')
    (hd : mahalanobisSq e m < e.thr ^ 2) (k : Ix) (hk : m.indices = [k]) (z : ℝ) (hz : m.value k = some z) :
    let r := usedVariance (m.cov k k)
    let δ := wrapInnovation k (z - e.state k)
    e'.state = wrapState (fun i => e.state i + e.cov i k / (e.cov k k + r) * δ) ∧
      ∀ i j, e'.cov i j = e.cov i j - e.cov i k * e.cov k j / (e.cov k k + r) := by
  intro r δ
  have hlen : m.indices.length = 1 := by rw [hk]; rfl
  have hall : ∀ x ∈ m.indices, x = k := by rw [hk]; simp
  have hobs : ∀ i : Fin m.indices.length, obs m i = k := fun i => hall _ (List.get_mem m.indices i)
  have hsub : Subsingleton (Fin m.indices.length) := by rw [hlen]; infer_instance
  set i0 : Fin m.indices.length := ⟨0, by omega⟩ with hi0
  have hsum : ∀ f : Fin m.indices.length → ℝ, ∑ i, f i = f i0 := fun f =>
    Fintype.sum_eq_single i0 fun i hi => absurd (Subsingleton.elim i i0) hi
  have hpos : 0 < e.cov k k + r := add_pos_of_nonneg_of_pos (he.1.diag_nonneg k) (usedVariance_pos _)
  have hSt := (diff_cov e.cov he.1 (obs m) (fun i => usedVariance (m.cov (obs m i) (obs m i))) fun i => usedVariance_pos _)
  have hS : m.S e.cov = differenceCov e.cov (obs m) (fun i => usedVariance (m.cov (obs m i) (obs m i))) := S_eq e.cov m hm
  have hdet : (m.S e.cov).det ≠ 0 := by rw [hS]; exact det_ne_zero_of_pos hSt.2
  have hWS : m.gain e.cov * m.S e.cov = e.cov.submatrix id (obs m) := by
    rw [gain_eq, Matrix.mul_assoc, nonsing_inv_mul _ (isUnit_iff_ne_zero.mpr hdet), Matrix.mul_one]
  have hS0 : m.S e.cov i0 i0 = e.cov k k + r := by
    rw [hS]
    simp [differenceCov, hobs, r]
  have hW : ∀ i, m.gain e.cov i i0 = e.cov i k / (e.cov k k + r) := by
    intro i
    have := congrFun (congrFun hWS i) i0
    rw [Matrix.mul_apply, hsum, hS0] at this
    rw [eq_div_iff hpos.ne', this]
    simp [hobs]
  have acc := C32_accepted e e' m h hd
  have hK : m.gain e.cov = e.cov * m.Hᵀ * (m.H * e.cov * m.Hᵀ + m.R)⁻¹ := by
    simp only [KMeas.gain, KMeas.S, Matrix.mul_assoc]
  simp only [← hK] at acc
  refine ⟨?_, fun i j => ?_⟩
  · rw [acc.1]
    congr 1
    funext i
    rw [Pi.add_apply, mulVec, dotProduct, hsum, hW]
    have : m.innovation e.state i0 = wrapInnovation (obs m i0) ((m.value (obs m i0)).getD 0 - e.state (obs m i0)) := rfl
    rw [this, hobs, hz]
    rfl
  · have hR0 : m.R i0 i0 = r := by
      rw [R_eq m hm]
      simp [hobs, r]
    have hH : ∀ j, m.H i0 j = if j = k then 1 else 0 := fun j => by
      show (if j = obs m i0 then (1 : ℝ) else 0) = _
      rw [hobs]
    rw [acc.2.1]
    have hsym : ∀ a b, e.cov a b = e.cov b a := fun a b => congrFun (congrFun he.1.1 b) a
    have e1 : ∀ a b, (m.gain e.cov * m.H) a b = e.cov a k / (e.cov k k + r) * if b = k then 1 else 0 := by
      intro a b
      rw [Matrix.mul_apply, hsum, hW, hH]
    have e2 : (m.gain e.cov * m.R * (m.gain e.cov)ᵀ) i j = e.cov i k / (e.cov k k + r) * r * (e.cov j k / (e.cov k k + r)) := by
      rw [Matrix.mul_apply, hsum, Matrix.mul_apply, hsum, transpose_apply, hW, hW, hR0]
    have e3 : ∀ a b, ((1 - m.gain e.cov * m.H) * e.cov : KMat) a b = e.cov a b - e.cov a k / (e.cov k k + r) * e.cov k b := by
      intro a b
      rw [Matrix.sub_mul, Matrix.one_mul, Matrix.sub_apply, Matrix.mul_apply]
      simp only [e1, mul_ite, mul_one, mul_zero, ite_mul, zero_mul, Finset.sum_ite_eq', Finset.mem_univ, if_true]
    have e4 : ((1 - m.gain e.cov * m.H) * e.cov * (1 - m.gain e.cov * m.H)ᵀ : KMat) i j =
        (e.cov i j - e.cov i k / (e.cov k k + r) * e.cov k j)
          - (e.cov i k - e.cov i k / (e.cov k k + r) * e.cov k k) * (e.cov j k / (e.cov k k + r)) := by
      rw [transpose_sub, transpose_one, Matrix.mul_sub, Matrix.mul_one, Matrix.sub_apply, e3, Matrix.mul_apply]
      simp only [transpose_apply, e1, e3, mul_ite, mul_one, mul_zero, Finset.sum_ite_eq', Finset.mem_univ, if_true]
    rw [Matrix.add_apply, e2, e4, hsym j k]
    field_simp
    ring

private theorem fromDepth_indices (c : EkfStd) (v : KDepth) (rpy off : V3 ℝ) : (fromDepth c v rpy off).indices = [Z] := by
  have : (fromDepth c v rpy off).indices = (List.finRange 12).filter fun i => decide (Z = i) := by
    rw [KMeas.indices]
    apply List.filter_congr
    intro i _
    simp only [fromDepth, mkMeas, List.any_cons, List.any_nil, Bool.or_false]
    split <;> simp
  rw [this]
  decide

/-- C202: an accepted depth measurement puts the depth between the predicted and the measured depth (of the position the
filter follows), the nearer to the measured one the larger the predicted variance; the variance becomes smaller than that
of the prediction and not larger than that of the measurement. -/
theorem C202_depth (e e' : Ekf) (c : EkfStd) (v : KDepth) (rpy off : V3 ℝ) (he : CovOk e)
    (h : e.correct (fromDepth c v rpy off) = .ok e') (hd : mahalanobisSq e (fromDepth c v rpy off) < e.thr ^ 2) :
    let z := v.depth + (bodyToInertial rpy.x rpy.y rpy.z off).z
    let r := usedVariance (if v.std > 0 then v.std ^ 2 else (v.depth * c.factorZ + c.offsetZ) ^ 2)
    e'.state Z = (r * e.state Z + e.cov Z Z * z) / (e.cov Z Z + r) ∧
      e'.cov Z Z = e.cov Z Z * r / (e.cov Z Z + r) ∧ e'.cov Z Z ≤ e.cov Z Z ∧ e'.cov Z Z ≤ r ∧
      min (e.state Z) z ≤ e'.state Z ∧ e'.state Z ≤ max (e.state Z) z := by
  intro z r
  have hind := fromDepth_indices c v rpy off
  have hval : (fromDepth c v rpy off).value Z = some z := by simp [fromDepth, mkMeas, z]
  have hcovr : usedVariance ((fromDepth c v rpy off).cov Z Z) = r := by simp [fromDepth, mkMeas, r]
  obtain ⟨h1, h2⟩ := C202_single e e' _ he ((C29_built_diagonal c rpy off).1 v) h hd Z hind z hval
  simp only [hcovr] at h1 h2
  have hP : 0 ≤ e.cov Z Z := he.1.diag_nonneg Z
  have hr : 0 < r := usedVariance_pos _
  have hpos : 0 < e.cov Z Z + r := by linarith
  have hZ : ¬ (Z = ROLL ∨ Z = PITCH ∨ Z = YAW) := by decide
  have hs : e'.state Z = (r * e.state Z + e.cov Z Z * z) / (e.cov Z Z + r) := by
    rw [h1, wrapState, if_neg hZ, wrapInnovation, if_neg hZ]
    field_simp
    ring
  have hc : e'.cov Z Z = e.cov Z Z * r / (e.cov Z Z + r) := by
    rw [h2]
    field_simp
    ring
  refine ⟨hs, hc, ?_, ?_, ?_, ?_⟩
  · rw [hc, div_le_iff₀ hpos]; nlinarith
  · rw [hc, div_le_iff₀ hpos]; nlinarith
  · rw [hs, le_div_iff₀ hpos]
    nlinarith [min_le_left (e.state Z) z, min_le_right (e.state Z) z]
  · rw [hs, div_le_iff₀ hpos]
    nlinarith [le_max_left (e.state Z) z, le_max_right (e.state Z) z]

/-- A filter that knows nothing in particular and a depth measurement that agrees with it. -/
example : ∃ e', (Ekf.init 0 0 1 1 3).correct (fromDepth ⟨0, 1, ⟨0, 0, 0⟩, ⟨0, 0, 0⟩, 0, 0, 0, 0⟩ ⟨1, 0, 1⟩ ⟨0, 0, 0⟩ ⟨0, 0, 0⟩) = .ok e' :=
  C32_returns _ _ (by
    have h : IsCov (1 : KMat) := ⟨transpose_one, fun v => by
      rw [one_mulVec, dotProduct]
      exact Finset.sum_nonneg fun i _ => mul_self_nonneg _⟩
    refine ⟨h, h, fun s hs => ?_⟩
    rw [List.mem_singleton.mp hs]; exact h) ((C29_built_diagonal _ _ _).1 _)

example : mahalanobisSq (Ekf.init 0 0 1 1 3)
    (fromDepth ⟨0, 1, ⟨0, 0, 0⟩, ⟨0, 0, 0⟩, 0, 0, 0, 0⟩ ⟨1, 0, 1⟩ ⟨0, 0, 0⟩ ⟨0, 0, 0⟩) < (Ekf.init 0 0 1 1 3).thr ^ 2 := by
  have h : (fromDepth ⟨0, 1, ⟨0, 0, 0⟩, ⟨0, 0, 0⟩, 0, 0, 0, 0⟩ ⟨1, 0, 1⟩ ⟨0, 0, 0⟩ ⟨0, 0, 0⟩).innovation
      (Ekf.init 0 0 1 1 3).state = 0 := by
    funext i
    have hall : ∀ x ∈ (fromDepth ⟨0, 1, ⟨0, 0, 0⟩, ⟨0, 0, 0⟩, 0, 0, 0, 0⟩ ⟨1, 0, 1⟩ ⟨0, 0, 0⟩ ⟨0, 0, 0⟩).indices, x = Z := by
      rw [fromDepth_indices]; simp
    simp only [KMeas.innovation, Pi.zero_apply]
    rw [hall _ (List.get_mem _ i), wrapInnovation, if_neg (by decide)]
    simp [fromDepth, mkMeas, bodyToInertial, Ekf.init]
  rw [mahalanobisSq, h]
  simp [Ekf.init]

end Oplab.Props
