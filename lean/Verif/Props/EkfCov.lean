import Verif.Model.Ekf
import Verif.Lemmas.Covariance

/-!
# C29, C31, C32, C34 — single steps of the extended Kalman filter
-/

namespace Oplab.Props
open Oplab Oplab.Spec Matrix Real

/-! ### C31 — angle wrapping -/

private theorem wrapDown_spec (r : ℝ) :
    wrapDown r ≤ π ∧ (-π ≤ r → -π ≤ wrapDown r) ∧ ∃ k : ℤ, wrapDown r = r + k * (2 * π) := by
  fun_induction wrapDown r with
  | case1 r h ih =>
    obtain ⟨h1, h2, k, hk⟩ := ih
    refine ⟨h1, fun _ => h2 (by linarith), k - 1, ?_⟩
    rw [hk]; push_cast; ring
  | case2 r h => exact ⟨le_of_not_gt h, id, 0, by simp⟩

private theorem wrapUp_spec (r : ℝ) :
    -π ≤ wrapUp r ∧ (r ≤ π → wrapUp r ≤ π) ∧ ∃ k : ℤ, wrapUp r = r + k * (2 * π) := by
  fun_induction wrapUp r with
  | case1 r h ih =>
    obtain ⟨h1, h2, k, hk⟩ := ih
    refine ⟨h1, fun _ => h2 (by linarith [pi_pos]), k + 1, ?_⟩
    rw [hk]; push_cast; ring
  | case2 r h => exact ⟨le_of_not_gt h, id, 0, by simp⟩

/-- C31: `clamp_rotation` maps every angle into `[-π, π]`, changing it by whole turns. -/
theorem C31_clamp (r : ℝ) : WrappedTo π (clampRotation r) r := by
  obtain ⟨h1, _, k, hk⟩ := wrapDown_spec r
  obtain ⟨g1, g2, l, hl⟩ := wrapUp_spec (wrapDown r)
  refine ⟨g1, g2 h1, k + l, ?_⟩
  rw [clampRotation, hl, hk]; push_cast; ring

/-- C31: an angle already in `[-π, π]` is left alone. -/
theorem C31_clamp_id (r : ℝ) (h1 : -π ≤ r) (h2 : r ≤ π) : clampRotation r = r := by
  have a : wrapDown r = r := by rw [wrapDown, if_neg (not_lt.mpr h2)]
  rw [clampRotation, a, wrapUp, if_neg (not_lt.mpr h1)]

/-- The three angle entries of a state are in `[-π, π]`. -/
def AnglesWrapped (s : KVec) : Prop := ∀ i ∈ [Ix.ROLL, Ix.PITCH, Ix.YAW], -π ≤ s i ∧ s i ≤ π

private theorem wrapState_wrapped (s : KVec) : AnglesWrapped (wrapState s) := by
  intro i hi
  have : i = Ix.ROLL ∨ i = Ix.PITCH ∨ i = Ix.YAW := by simpa using hi
  simp only [wrapState, if_pos this]
  exact ⟨(C31_clamp _).1, (C31_clamp _).2.1⟩

/-- C31: innovations of angles are in `[-π, π]` and equal measured minus estimated angle
up to whole turns; other innovations are the plain difference. -/
theorem C31_innovation (m : KMeas) (s : KVec) (i : Fin m.indices.length) (z : ℝ)
    (hz : m.value (m.indices.get i) = some z) :
    (m.indices.get i ∈ [Ix.ROLL, Ix.PITCH, Ix.YAW] →
      WrappedTo π (m.innovation s i) (z - s (m.indices.get i))) ∧
    (m.indices.get i ∉ [Ix.ROLL, Ix.PITCH, Ix.YAW] →
      m.innovation s i = z - s (m.indices.get i)) := by
  constructor
  · intro h
    have h' : m.indices.get i = Ix.ROLL ∨ m.indices.get i = Ix.PITCH ∨ m.indices.get i = Ix.YAW := by
      simpa using h
    simp only [KMeas.innovation, wrapInnovation, if_pos h', hz, Option.getD_some]
    obtain ⟨g1, g2, l, hl⟩ := wrapUp_spec (z - s (m.indices.get i))
    obtain ⟨h1, h2, k, hk⟩ := wrapDown_spec (wrapUp (z - s (m.indices.get i)))
    refine ⟨h2 g1, h1, k + l, ?_⟩
    rw [hk, hl]; push_cast; ring
  · intro h
    have h' : ¬ (m.indices.get i = Ix.ROLL ∨ m.indices.get i = Ix.PITCH ∨ m.indices.get i = Ix.YAW) := by
      simpa using h
    simp only [KMeas.innovation, wrapInnovation, if_neg h', hz, Option.getD_some]

/-- The entries of a measurement that are used are its non-NaN update entries. -/
theorem C31_indices (m : KMeas) (k : Ix) :
    k ∈ m.indices ↔ m.upd k = true ∧ ∃ z, m.value k = some z := by
  simp [KMeas.indices, Option.isSome_iff_exists]

/-! ### C29 — covariance -/

/-- The measurement's own covariance, restricted to its used entries, is diagonal.  All
measurements auv_nav builds are of this kind, see `C29_built_diagonal`. -/
def DiagonalNoise (m : KMeas) : Prop := ∀ i j, i ≠ j → m.cov i j = 0

theorem C29_built_diagonal (c : EkfStd) (r off : V3 ℝ) :
    (∀ v, DiagonalNoise (fromDepth c v r off)) ∧ (∀ v, DiagonalNoise (fromUsbl c v r off)) ∧
    (∀ v, DiagonalNoise (fromDvl c v)) ∧ (∀ v, DiagonalNoise (fromOrientation c v)) := by
  refine ⟨?_, ?_, ?_, ?_⟩ <;> intro v i j h <;>
    simp [fromDepth, fromUsbl, fromDvl, fromOrientation, mkMeas, h]

private theorem R_diag (m : KMeas) (h : DiagonalNoise m) :
    ∃ d : Fin m.indices.length → ℝ, (∀ i, 0 < d i) ∧ m.R = diagonal d := by
  refine ⟨fun i => m.R i i, ?_, ?_⟩
  · intro i
    simp only [KMeas.R, if_true]
    split_ifs <;> first | positivity | linarith
  · ext i j
    by_cases hij : i = j
    · subst hij; simp
    · have hne : m.indices.get i ≠ m.indices.get j := by
        have hnd : m.indices.Nodup := (List.nodup_finRange 12).filter _
        intro hc
        exact hij ((List.Nodup.get_inj_iff hnd).mp hc)
      rw [diagonal_apply_ne _ hij]
      simp only [KMeas.R, if_neg hij]
      exact h _ _ hne

private theorem diag_cov {k : Nat} (d : Fin k → ℝ) (h : ∀ i, 0 < d i) :
    IsCov (diagonal d) ∧ ∀ v : Fin k → ℝ, v ≠ 0 → 0 < v ⬝ᵥ (diagonal d *ᵥ v) := by
  have e : ∀ v : Fin k → ℝ, v ⬝ᵥ (diagonal d *ᵥ v) = ∑ i, d i * (v i) ^ 2 := by
    intro v
    simp only [dotProduct, mulVec_diagonal]
    exact Finset.sum_congr rfl fun i _ => by ring
  refine ⟨⟨diagonal_transpose d, fun v => ?_⟩, fun v hv => ?_⟩
  · rw [e]; exact Finset.sum_nonneg fun i _ => mul_nonneg (h i).le (sq_nonneg _)
  · rw [e]
    obtain ⟨i, hi⟩ := Function.ne_iff.mp hv
    exact Finset.sum_pos' (fun i _ => mul_nonneg (h i).le (sq_nonneg _))
      ⟨i, Finset.mem_univ _, mul_pos (h i) (by simpa using sq_pos_of_ne_zero hi)⟩

private theorem S_pos (P : KMat) (hP : IsCov P) (m : KMeas) (hm : DiagonalNoise m) :
    IsCov (m.S P) ∧ (m.S P).det ≠ 0 := by
  unfold KMeas.S
  obtain ⟨d, hd, hR⟩ := R_diag m hm
  have h1 : IsCov (m.H * (P * m.Hᵀ)) := by
    rw [← Matrix.mul_assoc]; exact hP.congr _
  rw [hR]
  refine ⟨h1.add (diag_cov d hd).1, det_ne_zero_of_pos fun v hv => ?_⟩
  rw [add_mulVec, dotProduct_add]
  exact add_pos_of_nonneg_of_pos (h1.2 v) ((diag_cov d hd).2 v hv)

/-- The filter holds a covariance, and so does every recorded state. -/
def CovOk (e : Ekf) : Prop := IsCov e.cov ∧ IsCov e.Q ∧ ∀ s ∈ e.hist, IsCov s.cov

/-- C29: a prediction keeps every covariance symmetric positive semidefinite. -/
theorem C29_predict (e e' : Ekf) (t d : ℝ) (he : CovOk e) (h : e.predict t d = .ok e') : CovOk e' := by
  unfold Ekf.predict at h
  by_cases hc : cos (e.state Ix.PITCH) = 0
  · rw [if_pos hc] at h; cases h
  rw [if_neg hc] at h
  injection h with h
  subst h
  have hP : IsCov ((transferJacobian d e.state (transferFunction d e.state)) * e.cov *
      (transferJacobian d e.state (transferFunction d e.state))ᵀ + |d| • e.Q) :=
    (he.1.congr _).add (he.2.1.smul (abs_nonneg d))
  refine ⟨hP, he.2.1, fun s hs => ?_⟩
  rcases List.mem_append.mp hs with hs | hs
  · exact he.2.2 s hs
  · rw [List.mem_singleton.mp hs]; exact hP

private theorem mem_setLast {h : List EState} {s : KVec} {P : KMat} {x : EState}
    (hx : x ∈ setLast h s P) : x ∈ h ∨ x.cov = P ∧ x.state = s := by
  unfold setLast at hx
  split at hx
  · exact Or.inl hx
  · rcases List.mem_append.mp hx with hx | hx
    · exact Or.inl (List.dropLast_subset _ hx)
    · rw [List.mem_singleton.mp hx]; exact Or.inr ⟨rfl, rfl⟩

/-- C29: a correction with a measurement never fails to invert the innovation covariance
and keeps every covariance symmetric positive semidefinite. -/
theorem C29_correct (e : Ekf) (m : KMeas) (he : CovOk e) (hm : DiagonalNoise m) :
    ∃ e', e.correct m = .ok e' ∧ CovOk e' := by
  obtain ⟨hS, hdet⟩ := S_pos e.cov he.1 m hm
  unfold Ekf.correct
  simp only [if_neg hdet]
  refine ⟨_, rfl, ?_⟩
  obtain ⟨d, hd, hR⟩ := R_diag m hm
  have hRc : IsCov m.R := by rw [hR]; exact (diag_cov d hd).1
  have hPn : ∀ (G : KMat) (K : Matrix Ix (Fin m.indices.length) ℝ),
      IsCov (G * e.cov * Gᵀ + K * m.R * Kᵀ) := fun G K => (he.1.congr G).add (hRc.congr K)
  split_ifs
  · exact he
  · refine ⟨hPn _ _, he.2.1, fun s hs => ?_⟩
    rcases mem_setLast hs with hs | hs
    · exact he.2.2 s hs
    · rw [hs.1]; exact hPn _ _

/-- C29: an offered measurement never increases the uncertainty in any direction. -/
theorem C29_correct_shrinks (e e' : Ekf) (m : KMeas) (he : CovOk e) (hm : DiagonalNoise m)
    (h : e.correct m = .ok e') : CovLe e'.cov e.cov := by
  obtain ⟨hS, hdet⟩ := S_pos e.cov he.1 m hm
  unfold Ekf.correct at h
  rw [if_neg hdet] at h
  injection h with h
  subst h
  simp only
  split_ifs
  · exact fun v => le_refl _
  simp only [Ekf.accept]
  have hu : IsUnit (m.S e.cov).det := isUnit_iff_ne_zero.mpr hdet
  have hKS : m.gain e.cov * m.S e.cov = e.cov * m.Hᵀ := by
    rw [KMeas.gain, Matrix.mul_assoc, nonsing_inv_mul _ hu, Matrix.mul_one]
  have hKt : (m.gain e.cov)ᵀ = (m.S e.cov)⁻¹ * (m.H * e.cov) := by
    rw [KMeas.gain, transpose_mul, transpose_nonsing_inv, hS.1, transpose_mul, transpose_transpose,
      he.1.1]
  set K := m.gain e.cov with hK
  have hR : m.R = m.S e.cov - m.H * (e.cov * m.Hᵀ) := by rw [KMeas.S]; abel
  have hKSK : K * m.S e.cov * Kᵀ = K * (m.H * e.cov) := by
    rw [hKt, Matrix.mul_assoc, ← Matrix.mul_assoc (m.S e.cov), mul_nonsing_inv _ hu,
      Matrix.one_mul]
  have key : (1 - K * m.H) * e.cov * (1 - K * m.H)ᵀ + K * m.R * Kᵀ
      = e.cov - K * m.S e.cov * Kᵀ := by
    have h1 : K * m.R * Kᵀ = K * m.S e.cov * Kᵀ - K * (m.H * (e.cov * m.Hᵀ)) * Kᵀ := by
      rw [hR, Matrix.mul_sub, Matrix.sub_mul]
    have h2 : (1 - K * m.H) * e.cov * (1 - K * m.H)ᵀ = e.cov - K * (m.H * e.cov)
        - e.cov * m.Hᵀ * Kᵀ + K * (m.H * (e.cov * m.Hᵀ)) * Kᵀ := by
      rw [transpose_sub, transpose_one, transpose_mul]
      simp only [Matrix.sub_mul, Matrix.mul_sub, Matrix.one_mul, Matrix.mul_one, Matrix.mul_assoc]
      abel
    rw [h1, h2, ← hKS, ← hKSK]
    abel
  intro v
  have := (hS.congr K).2 v
  rw [key, sub_mulVec, dotProduct_sub]
  linarith

/-- C29: every standard deviation reported from a covariance matrix squares to the
variance, so the `max(0, ·)` guard in the report never hides a negative variance. -/
theorem C29_std (P : KMat) (hP : IsCov P) (i : Ix) :
    stdOfVar (P i i) ^ 2 = P i i ∧ 0 ≤ stdOfVar (P i i) := by
  have := hP.diag_nonneg i
  rw [stdOfVar, max_eq_right this]
  exact ⟨Real.sq_sqrt this, Real.sqrt_nonneg _⟩

/-- C31: after every prediction and every accepted measurement the state's angles are in
`[-π, π]`, and so are those of the state recorded for it. -/
theorem C31_predict (e e' : Ekf) (t d : ℝ) (h : e.predict t d = .ok e') :
    AnglesWrapped e'.state ∧ ∃ s, e'.hist = e.hist ++ [s] ∧ s.time = t ∧ s.state = e'.state := by
  unfold Ekf.predict at h
  by_cases hc : cos (e.state Ix.PITCH) = 0
  · rw [if_pos hc] at h; cases h
  rw [if_neg hc] at h
  injection h with h
  subst h
  exact ⟨wrapState_wrapped _, _, rfl, rfl, rfl⟩

theorem C31_correct (e e' : Ekf) (m : KMeas) (h : e.correct m = .ok e') :
    (e'.state = e.state ∧ e'.hist = e.hist) ∨
    (AnglesWrapped e'.state ∧
      ∀ pre last, e.hist = pre ++ [last] → e'.hist = pre ++ [⟨last.time, e'.state, e'.cov⟩]) := by
  unfold Ekf.correct at h
  by_cases hc : (m.S e.cov).det = 0
  · rw [if_pos hc] at h; cases h
  rw [if_neg hc] at h
  injection h with h
  subst h
  simp only
  split_ifs
  · exact Or.inl ⟨rfl, rfl⟩
  · refine Or.inr ⟨wrapState_wrapped _, fun pre last hl => ?_⟩
    simp [Ekf.accept, setLast, hl]

/-- Non-vacuity: the identity is a covariance. -/
example : CovOk (Ekf.init 0 0 1 1 3) := by
  have h : IsCov (1 : KMat) := by
    refine ⟨transpose_one, fun v => ?_⟩
    rw [one_mulVec]
    exact Finset.sum_nonneg fun i _ => mul_self_nonneg _
  refine ⟨h, h, fun s hs => ?_⟩
  rw [List.mem_singleton.mp hs]; exact h

/-! ### C32 — outlier gate -/

/-- Mahalanobis distance of a measurement from the filter's prediction, squared. -/
noncomputable def mahalanobisSq (e : Ekf) (m : KMeas) : ℝ :=
  m.innovation e.state ⬝ᵥ ((m.H * e.cov * m.Hᵀ + m.R)⁻¹ *ᵥ m.innovation e.state)

private theorem dist2_eq (e : Ekf) (m : KMeas) : m.dist2 e.state e.cov = mahalanobisSq e m := by
  simp only [KMeas.dist2, mahalanobisSq, KMeas.S, Matrix.mul_assoc]

open Classical in
private theorem correct_ok {e e' : Ekf} {m : KMeas} (h : e.correct m = .ok e') :
    e' = { (if e.thr ^ 2 ≤ mahalanobisSq e m then e.reject m else e.accept m) with
           reports := fun k => if k = m.type then
             some (((e.reports k).getD {}).add (decide (mahalanobisSq e m < e.thr ^ 2)))
             else e.reports k } := by
  unfold Ekf.correct at h
  by_cases hc : (m.S e.cov).det = 0
  · rw [if_pos hc] at h; cases h
  rw [if_neg hc] at h
  injection h with h
  rw [← h]
  simp only [dist2_eq, ge_iff_le, decide_eq_true_eq, ← not_le, decide_not]

/-- C32: a rejected measurement — distance at or beyond the threshold — leaves the state,
the covariance, the update time and all recorded states unchanged, and its time is
appended to the rejected list of its sensor (of no other). -/
theorem C32_rejected (e e' : Ekf) (m : KMeas) (h : e.correct m = .ok e')
    (hd : e.thr ^ 2 ≤ mahalanobisSq e m) :
    e'.state = e.state ∧ e'.cov = e.cov ∧ e'.lastT = e.lastT ∧ e'.hist = e.hist ∧
    e'.nExceeded = e.nExceeded + 1 ∧
    e'.rejected m.type = some ((e.rejected m.type).getD [] ++ [m.time]) ∧
    (∀ k, k ≠ m.type → e'.rejected k = e.rejected k) := by
  rw [correct_ok h, if_pos hd]
  refine ⟨rfl, rfl, rfl, rfl, rfl, by simp [Ekf.reject], fun k hk => by simp [Ekf.reject, hk]⟩

/-- C32: an accepted measurement — distance below the threshold — moves the state by the
Kalman gain times the innovation (angles wrapped), updates the covariance by the gain, is
not listed as rejected, and replaces the last recorded state. -/
theorem C32_accepted (e e' : Ekf) (m : KMeas) (h : e.correct m = .ok e')
    (hd : mahalanobisSq e m < e.thr ^ 2) :
    let S := m.H * e.cov * m.Hᵀ + m.R
    let K := e.cov * m.Hᵀ * S⁻¹
    e'.state = wrapState (e.state + K *ᵥ m.innovation e.state) ∧
    e'.cov = (1 - K * m.H) * e.cov * (1 - K * m.H)ᵀ + K * m.R * Kᵀ ∧
    e'.lastT = m.time ∧ e'.rejected = e.rejected ∧ e'.nExceeded = e.nExceeded ∧
    (∀ pre last, e.hist = pre ++ [last] → e'.hist = pre ++ [⟨last.time, e'.state, e'.cov⟩]) := by
  rw [correct_ok h, if_neg (not_le.mpr hd)]
  have hK : m.gain e.cov = e.cov * m.Hᵀ * (m.H * e.cov * m.Hᵀ + m.R)⁻¹ := by
    simp only [KMeas.gain, KMeas.S, Matrix.mul_assoc]
  intro S K
  simp only [Ekf.accept, hK]
  refine ⟨rfl, rfl, trivial, trivial, trivial, ?_⟩
  intro pre last hl
  simp [setLast, hl]

/-- C32: in both cases no state is added or removed and no state time changes. -/
theorem C32_hist_times (e e' : Ekf) (m : KMeas) (h : e.correct m = .ok e') :
    e'.hist.map (·.time) = e.hist.map (·.time) := by
  rcases lt_or_ge (mahalanobisSq e m) (e.thr ^ 2) with hd | hd
  · rcases List.eq_nil_or_concat e.hist with hn | ⟨pre, last, hl⟩
    · rw [correct_ok h, if_neg (not_le.mpr hd)]
      simp [Ekf.accept, hn, setLast]
    · rw [List.concat_eq_append] at hl
      rw [(C32_accepted e e' m h hd).2.2.2.2.2 pre last hl, hl]
      simp
  · rw [(C32_rejected e e' m h hd).2.2.2.1]

/-- C32: which of the two happens is recorded in the sensor's report. -/
theorem C32_report (e e' : Ekf) (m : KMeas) (h : e.correct m = .ok e') :
    (mahalanobisSq e m < e.thr ^ 2 →
      e'.reports m.type = some (((e.reports m.type).getD {}).add true)) ∧
    (e.thr ^ 2 ≤ mahalanobisSq e m →
      e'.reports m.type = some (((e.reports m.type).getD {}).add false)) ∧
    ∀ k, k ≠ m.type → e'.reports k = e.reports k := by
  rw [correct_ok h]
  refine ⟨fun hd => by simp [hd], fun hd => by simp [not_lt.mpr hd],
    fun k hk => by simp [hk]⟩

/-- The gate in terms of the distance itself, for a positive threshold. -/
theorem C32_distance (e : Ekf) (m : KMeas) (ht : 0 < e.thr) :
    sqrt (mahalanobisSq e m) < e.thr ↔ mahalanobisSq e m < e.thr ^ 2 :=
  Real.sqrt_lt' ht

/-- C32: with a covariance matrix and an in-threshold or out-of-threshold measurement alike
the call returns, so one of the two cases above applies (non-vacuity of both). -/
theorem C32_returns (e : Ekf) (m : KMeas) (he : CovOk e) (hm : DiagonalNoise m) :
    ∃ e', e.correct m = .ok e' := by
  obtain ⟨e', h, _⟩ := C29_correct e m he hm
  exact ⟨e', h⟩

/-! ### C34 — measurement report -/

/-- A sequence of corrections. -/
noncomputable def correctAll (e : Ekf) (ms : List KMeas) : Res Ekf := ms.foldlM Ekf.correct e

/-- A report adds up. -/
def ReportOk (e : Ekf) : Prop := ∀ k,
  ((e.reports k).getD {}).total = ((e.reports k).getD {}).valid + ((e.reports k).getD {}).dropped ∧
  ((e.reports k).getD {}).dropped = ((e.rejected k).getD []).length

theorem report_step (e e' : Ekf) (m : KMeas) (h : e.correct m = .ok e') (he : ReportOk e) :
    ReportOk e' ∧ ∀ k, ((e'.reports k).getD {}).total =
      ((e.reports k).getD {}).total + if m.type = k then 1 else 0 := by
  obtain ⟨h1, h1', h2⟩ := C32_report e e' m h
  have hek := he m.type
  rcases lt_or_ge (mahalanobisSq e m) (e.thr ^ 2) with hd | hd
  · have hr := (C32_accepted e e' m h hd).2.2.2.1
    have h1 := h1 hd
    constructor <;> intro k <;> by_cases hk : k = m.type
    · subst hk; rw [h1, hr]; simp [MReport.add, ← hek.2]
    · rw [h2 k hk, hr]; exact he k
    · subst hk; rw [h1]; simp [MReport.add, hek.1]; omega
    · rw [h2 k hk]; simp [Ne.symm hk]
  · have hr := (C32_rejected e e' m h hd).2.2.2.2.2
    have h1 := h1' hd
    constructor <;> intro k <;> by_cases hk : k = m.type
    · subst hk; rw [h1, hr.1]; simp [MReport.add, hek.2]
    · rw [h2 k hk, hr.2 k hk]; exact he k
    · subst hk; rw [h1]; simp [MReport.add, hek.1]; omega
    · rw [h2 k hk]; simp [Ne.symm hk]

/-- C34: after any sequence of measurements, for every sensor, the reported total is the
number of measurements offered, it is the sum of valid and dropped, and dropped is the
number of recorded rejections. -/
theorem C34_report (t : ℝ) (s : KVec) (P Q : KMat) (thr : ℝ) (ms : List KMeas) (e' : Ekf)
    (h : correctAll (Ekf.init t s P Q thr) ms = .ok e') (k : String) :
    ((e'.reports k).getD {}).total = ms.countP (fun m => m.type = k) ∧
    ((e'.reports k).getD {}).total = ((e'.reports k).getD {}).valid + ((e'.reports k).getD {}).dropped ∧
    ((e'.reports k).getD {}).dropped = ((e'.rejected k).getD []).length := by
  have key : ∀ (ms : List KMeas) (e e' : Ekf), correctAll e ms = .ok e' → ReportOk e →
      ReportOk e' ∧ ((e'.reports k).getD {}).total =
        ((e.reports k).getD {}).total + ms.countP (fun m => m.type = k) := by
    intro ms
    induction ms with
    | nil =>
      intro e e' h he
      simp only [correctAll, List.foldlM_nil, pure, Except.pure] at h
      injection h with h
      subst h
      simpa using he
    | cons m ms ih =>
      intro e e' h he
      simp only [correctAll, List.foldlM_cons, bind, Except.bind] at h
      cases hc : e.correct m with
      | error x => rw [hc] at h; cases h
      | ok e1 =>
        rw [hc] at h
        obtain ⟨r1, r2⟩ := report_step e e1 m hc he
        obtain ⟨s1, s2⟩ := ih e1 e' h r1
        refine ⟨s1, ?_⟩
        rw [s2, r2 k, List.countP_cons]
        simp only [decide_eq_true_eq]
        omega
  obtain ⟨r1, r2⟩ := key ms _ e' h (by intro k; simp [Ekf.init])
  refine ⟨?_, r1 k⟩
  rw [r2]; simp [Ekf.init]

end Oplab.Props
