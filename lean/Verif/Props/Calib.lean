import Verif.Spec.Calib
import Mathlib.LinearAlgebra.Matrix.NonsingularInverse
import Mathlib.LinearAlgebra.Matrix.Adjugate
import Mathlib.Tactic.FinCases
import Mathlib.Tactic.Linarith
import Mathlib.Tactic.FieldSimp
import Mathlib.Tactic.Ring
import Mathlib.Tactic.NormNum
import Mathlib.Tactic.Positivity
import Mathlib.Tactic.LinearCombination

/-! # C58 to C60: RANSAC, planes, Euler angles -/

namespace Oplab.Props
open Oplab Oplab.Spec

/-! ## C58 -/

section Ransac
variable {P M : Type} (svd : List P → M) (inlier : M → P → Bool) (data : List P) (goal : ℚ) (stop : Bool)

private theorem loop_inv (samples : List (List P)) (i : ℕ) (s : RansacState P) (l : List P) (j : ℕ)
    (h : (ransacLoop svd inlier data goal stop samples i s).latest = some (l, j)) :
    s.latest = some (l, j) ∨ ∃ sample ∈ samples, l = data.filter (inlier (svd (sample.take 3))) := by
  induction samples generalizing i s with
  | nil => exact .inl h
  | cons sample rest ih =>
    unfold ransacLoop at h
    simp only [] at h
    right
    split_ifs at h with h1 h2
    · simp only [Option.some.injEq, Prod.mk.injEq] at h
      exact ⟨sample, by simp, h.1.symm⟩
    · rcases ih _ _ h with h' | ⟨t, ht, he⟩
      · simp only [Option.some.injEq, Prod.mk.injEq] at h'
        exact ⟨sample, by simp, h'.1.symm⟩
      · exact ⟨t, by simp [ht], he⟩
    · rcases ih _ _ h with h' | ⟨t, ht, he⟩
      · simp only [Option.some.injEq, Prod.mk.injEq] at h'
        exact ⟨sample, by simp, h'.1.symm⟩
      · exact ⟨t, by simp [ht], he⟩

/-- C58, partly: the inliers returned are all the points close to one of the sampled planes, and the plane returned is
fitted to the first three of them. -/
theorem C58_inliers_partial (samples : List (List P)) (m : M) (l : List P) (i : ℕ)
    (h : runRansac svd inlier data goal stop samples = .ok (m, l, i)) :
    (∃ sample ∈ samples, l = data.filter (inlier (svd (sample.take 3)))) ∧ m = svd (l.take 3) := by
  unfold runRansac at h
  split at h
  · cases h
  · rename_i l' j hl
    simp only [Except.ok.injEq, Prod.mk.injEq] at h
    obtain ⟨h1, rfl, rfl⟩ := h
    rcases loop_inv svd inlier data goal stop samples 0 _ l' j hl with h' | h'
    · cases h'
    · exact ⟨h', h1.symm⟩

private theorem loop_stop (samples : List (List P)) (i : ℕ) (s : RansacState P) (l : List P) (j : ℕ)
    (hs : ∀ l' j', s.latest = some (l', j') → (l'.length : ℚ) ≤ goal)
    (hb : ((s.best : ℕ) : ℚ) ≤ goal)
    (h : (ransacLoop svd inlier data goal true samples i s).latest = some (l, j)) (hl : goal < (l.length : ℚ)) :
    i ≤ j ∧
      (∀ k, i + k < j → ∀ sample, samples[k]? = some sample →
        ((data.filter (inlier (svd (sample.take 3)))).length : ℚ) ≤ goal) ∧
      ∃ sample, samples[j - i]? = some sample ∧ l = data.filter (inlier (svd (sample.take 3))) := by
  induction samples generalizing i s with
  | nil =>
    have := hs l j h
    linarith
  | cons sample rest ih =>
    unfold ransacLoop at h
    simp only [and_true] at h
    have step : ∀ best : ℕ, (best : ℚ) ≤ goal →
        ((data.filter (inlier (fitPlane svd sample))).length : ℚ) ≤ goal →
        (ransacLoop svd inlier data goal true rest (i + 1)
          ⟨best, some (data.filter (inlier (fitPlane svd sample)), i)⟩).latest = some (l, j) →
        i ≤ j ∧
          (∀ k, i + k < j → ∀ sample', (sample :: rest)[k]? = some sample' →
            ((data.filter (inlier (svd (sample'.take 3)))).length : ℚ) ≤ goal) ∧
          ∃ sample', (sample :: rest)[j - i]? = some sample' ∧ l = data.filter (inlier (svd (sample'.take 3))) := by
      intro best hb' h2 h
      obtain ⟨a, c, sm, d, e⟩ := ih (i + 1) ⟨best, some (data.filter (inlier (fitPlane svd sample)), i)⟩
        (fun l' j' he => by
          simp only [Option.some.injEq, Prod.mk.injEq] at he
          rw [← he.1]; exact h2) hb' h
      refine ⟨by omega, ?_, sm, ?_, e⟩
      · intro k hk sample' hk'
        cases k with
        | zero =>
          simp only [List.getElem?_cons_zero, Option.some.injEq] at hk'
          subst hk'
          exact h2
        | succ k => exact c k (by omega) sample' (by simpa using hk')
      · rw [show j - i = (j - (i + 1)) + 1 by omega]; simpa using d
    by_cases h1 : s.best < (data.filter (inlier (fitPlane svd sample))).length
    · rw [if_pos h1] at h
      by_cases h2 : goal < ((data.filter (inlier (fitPlane svd sample))).length : ℚ)
      · rw [if_pos h2] at h
        simp only [Option.some.injEq, Prod.mk.injEq] at h
        obtain ⟨rfl, rfl⟩ := h
        refine ⟨le_rfl, fun k hk => by omega, sample, by simp, rfl⟩
      · rw [if_neg h2] at h
        exact step _ (not_lt.1 h2) (not_lt.1 h2) h
    · rw [if_neg h1] at h
      refine step _ hb ?_ h
      have : ((data.filter (inlier (fitPlane svd sample))).length : ℚ) ≤ ((s.best : ℕ) : ℚ) := by
        exact_mod_cast not_lt.1 h1
      linarith

/-- C58, when the goal is reached: the search stops at the first plane with more inliers than the goal, and no plane
sampled before has more inliers than it. -/
theorem C58_goal_partial (samples : List (List P)) (m : M) (l : List P) (j : ℕ) (hg : 0 ≤ goal)
    (h : runRansac svd inlier data goal true samples = .ok (m, l, j)) (hl : goal < (l.length : ℚ)) :
    (∃ sample, samples[j]? = some sample ∧ l = data.filter (inlier (svd (sample.take 3)))) ∧
    ∀ k ≤ j, ∀ sample, samples[k]? = some sample →
      (data.filter (inlier (svd (sample.take 3)))).length ≤ l.length := by
  unfold runRansac at h
  split at h
  · cases h
  · rename_i l' j' hl'
    simp only [Except.ok.injEq, Prod.mk.injEq] at h
    obtain ⟨-, rfl, rfl⟩ := h
    obtain ⟨-, c, sm, d, e⟩ := loop_stop svd inlier data goal samples 0 ⟨0, none⟩ l' j' (by simp) (by simpa using hg)
      hl' hl
    refine ⟨⟨sm, by simpa using d, e⟩, ?_⟩
    intro k hk sample hs
    rcases Nat.lt_or_ge k j' with hlt | hge
    · have h' := c k (by omega) sample hs
      have : ((data.filter (inlier (svd (sample.take 3)))).length : ℚ) ≤ (l'.length : ℚ) := by linarith
      exact_mod_cast this
    · have : k = j' := by omega
      subst this
      have : sample = sm := by
        have d' : samples[k]? = some sm := by simpa using d
        rw [hs] at d'; simpa using d'
      rw [this, e]

/-- C58: without iterations there is an exception. -/
theorem C58_no_iterations : runRansac svd inlier data goal stop [] = .error .unboundLocal := rfl

end Ransac

private def cloud : List (V3 ℚ) := [⟨1, 0, 0⟩, ⟨0, 1, 0⟩, ⟨1, 1, 0⟩, ⟨2, 1, 0⟩, ⟨0, 0, 1⟩, ⟨0, 1, 1⟩]

/-- For the samples below: the unit coefficient vector that vanishes on the points. -/
private def cloudSvd (l : List (V3 ℚ)) : V3 ℚ × ℚ :=
  if l.all (fun p => p.z = 0) then (⟨0, 0, 1⟩, 0) else (⟨1, 0, 0⟩, 0)

private def cloudInlier (m : V3 ℚ × ℚ) (p : V3 ℚ) : Bool :=
  |m.1.x * p.x + m.1.y * p.y + m.1.z * p.z + m.2| < 1 / 10

private def cloudSamples : List (List (V3 ℚ)) :=
  [[⟨1, 0, 0⟩, ⟨0, 1, 0⟩, ⟨1, 1, 0⟩], [⟨0, 1, 0⟩, ⟨0, 0, 1⟩, ⟨0, 1, 1⟩]]

/-- C58 fails: of two sampled planes, with four and three inliers, the three inliers of the second are returned. (Both
planes do contain the three points they were fitted to.) -/
theorem C58_last_not_best_false :
    (∀ s ∈ cloudSamples, ∀ p ∈ s, (cloudSvd s).1.x * p.x + (cloudSvd s).1.y * p.y + (cloudSvd s).1.z * p.z
      + (cloudSvd s).2 = 0) ∧
    runRansac cloudSvd cloudInlier cloud 5 true cloudSamples =
      .ok ((⟨1, 0, 0⟩, 0), [⟨0, 1, 0⟩, ⟨0, 0, 1⟩, ⟨0, 1, 1⟩], 1) ∧
    (cloud.filter (cloudInlier (cloudSvd [⟨1, 0, 0⟩, ⟨0, 1, 0⟩, ⟨1, 1, 0⟩]))).length = 4 := by
  refine ⟨by decide +kernel, ?_, by decide +kernel⟩
  have : (runRansac cloudSvd cloudInlier cloud 5 true cloudSamples).toOption =
      some ((⟨1, 0, 0⟩, 0), [⟨0, 1, 0⟩, ⟨0, 0, 1⟩, ⟨0, 1, 1⟩], 1) := by decide +kernel
  cases hr : runRansac cloudSvd cloudInlier cloud 5 true cloudSamples with
  | error e => rw [hr] at this; cases this
  | ok v => rw [hr] at this; simp only [Except.toOption, Option.some.injEq] at this; rw [this]

/-- C58 fails: the final fit ignores all inliers but three. -/
theorem C58_refit_false {P M : Type} (svd : List P → M) (a b c : P) (rest rest' : List P) :
    fitPlane svd (a :: b :: c :: rest) = fitPlane svd (a :: b :: c :: rest') := rfl

/-! ## C59 -/

private theorem norm_sq (n : V3 ℝ) : norm3 n * norm3 n = dot3 n n := by
  unfold norm3
  apply Real.mul_self_sqrt
  unfold dot3
  nlinarith [mul_self_nonneg n.x, mul_self_nonneg n.y, mul_self_nonneg n.z]

private theorem norm_len (n : V3 ℝ) : norm3 n = len3 n := by unfold norm3 len3 dot3; ring_nf

private theorem norm_pos (n : V3 ℝ) (h : n ≠ ⟨0, 0, 0⟩) : 0 < norm3 n := by
  unfold norm3
  apply Real.sqrt_pos.2
  unfold dot3
  rcases lt_or_eq_of_le (show 0 ≤ n.x * n.x + n.y * n.y + n.z * n.z by
    nlinarith [mul_self_nonneg n.x, mul_self_nonneg n.y, mul_self_nonneg n.z]) with h' | h'
  · exact h'
  · exfalso
    apply h
    have hx : n.x = 0 := by nlinarith [mul_self_nonneg n.x, mul_self_nonneg n.y, mul_self_nonneg n.z]
    have hy : n.y = 0 := by nlinarith [mul_self_nonneg n.x, mul_self_nonneg n.y, mul_self_nonneg n.z]
    have hz : n.z = 0 := by nlinarith [mul_self_nonneg n.x, mul_self_nonneg n.y, mul_self_nonneg n.z]
    cases n; simp only [V3.mk.injEq]; exact ⟨hx, hy, hz⟩

/-- C59 for unit normals: the distance is the smallest distance to a point of the plane. -/
theorem C59_distance_partial (n : V3 ℝ) (d : ℝ) (q : V3 ℝ) (hn : len3 n = 1) :
    IsLeast {r | ∃ p, OnPlane n d p ∧ r = dist3 q p} ((planeOfCoeffs n d).distance q) := by
  have h1 : norm3 n = 1 := by rw [norm_len, hn]
  have h2 : n.x * n.x + n.y * n.y + n.z * n.z = 1 := by
    have := norm_sq n; rw [h1] at this; unfold dot3 at this; linarith
  have hd : (planeOfCoeffs n d).distance q = |n.x * q.x + n.y * q.y + n.z * q.z + d| := by
    unfold PlaneObj.distance planeOfCoeffs dot3
    simp only [h1, div_one]
  rw [hd]
  set e := n.x * q.x + n.y * q.y + n.z * q.z + d with he
  constructor
  · refine ⟨⟨q.x - e * n.x, q.y - e * n.y, q.z - e * n.z⟩, ?_, ?_⟩
    · unfold OnPlane
      simp only []
      linear_combination (-e) * h2
    · unfold dist3
      rw [← Real.sqrt_sq_eq_abs]
      congr 1
      simp only []
      linear_combination (-e ^ 2) * h2
  · rintro r ⟨p, hp, rfl⟩
    unfold OnPlane at hp
    unfold dist3
    apply Real.abs_le_sqrt
    have : e = n.x * (q.x - p.x) + n.y * (q.y - p.y) + n.z * (q.z - p.z) := by rw [he]; linarith
    rw [this]
    nlinarith [sq_nonneg (n.x * (q.y - p.y) - n.y * (q.x - p.x)), sq_nonneg (n.x * (q.z - p.z) - n.z * (q.x - p.x)),
      sq_nonneg (n.y * (q.z - p.z) - n.z * (q.y - p.y))]

/-- C59 fails for other scalings: the point (1, 0, 0) of the plane 2x - 2 = 0 has distance one half. -/
theorem C59_distance_false : OnPlane ⟨2, 0, 0⟩ (-2) ⟨1, 0, 0⟩ ∧ (planeOfCoeffs ⟨2, 0, 0⟩ (-2)).distance ⟨1, 0, 0⟩ = 1 / 2 := by
  have hs : norm3 ⟨2, 0, 0⟩ = 2 := by
    unfold norm3 dot3
    rw [show (2 : ℝ) * 2 + 0 * 0 + 0 * 0 = 2 ^ 2 by norm_num]
    exact Real.sqrt_sq (by norm_num)
  constructor
  · unfold OnPlane; norm_num
  · unfold PlaneObj.distance planeOfCoeffs dot3
    simp only [hs]
    norm_num

/-- C59: what `distance` is in general. -/
theorem C59_distance_general_false (n : V3 ℝ) (d : ℝ) (q : V3 ℝ) (hn : n ≠ ⟨0, 0, 0⟩) :
    (planeOfCoeffs n d).distance q = |n.x * q.x + n.y * q.y + n.z * q.z + d * len3 n| / len3 n ^ 2 := by
  have hp := norm_pos n hn
  rw [← norm_len]
  unfold PlaneObj.distance planeOfCoeffs dot3
  simp only []
  rw [← abs_of_pos (show 0 < norm3 n ^ 2 by positivity), ← abs_div]
  congr 1
  field_simp

private theorem ray_general (n : V3 ℝ) (d : ℝ) (o r : V3 ℝ) (hx : n.x ≠ 0) (hr : r ≠ ⟨0, 0, 0⟩) :
    ((planeOfCoeffs n d).rayIntersection o r = none ↔ n.x * r.x + n.y * r.y + n.z * r.z = 0) ∧
    ∀ p, (planeOfCoeffs n d).rayIntersection o r = some p →
      OnRayLine o r p ∧ n.x * p.x + n.y * p.y + n.z * p.z + d * len3 n = 0 := by
  have hn : n ≠ ⟨0, 0, 0⟩ := by rintro rfl; simp at hx
  have hs := norm_pos n hn
  have ht := norm_pos r hr
  have hpt : dot3 (planeOfCoeffs n d).normal (planeOfCoeffs n d).point = -(planeOfCoeffs n d).offset := by
    unfold planeOfCoeffs dot3
    simp only []
    field_simp
    ring
  have hzero : dot3 (planeOfCoeffs n d).normal ⟨r.x / norm3 r, r.y / norm3 r, r.z / norm3 r⟩ =
      (n.x * r.x + n.y * r.y + n.z * r.z) / (norm3 n ^ 2 * norm3 r) := by
    unfold planeOfCoeffs dot3
    simp only []
    field_simp
  unfold PlaneObj.rayIntersection
  simp only []
  rw [hzero]
  have hden : norm3 n ^ 2 * norm3 r ≠ 0 := by positivity
  by_cases h0 : n.x * r.x + n.y * r.y + n.z * r.z = 0
  · rw [h0, zero_div, if_pos rfl]
    simp
  · have hne : (n.x * r.x + n.y * r.y + n.z * r.z) / (norm3 n ^ 2 * norm3 r) ≠ 0 := div_ne_zero h0 hden
    rw [if_neg hne]
    refine ⟨by simp [h0], ?_⟩
    intro p hp
    simp only [Option.some.injEq] at hp
    rw [hpt] at hp
    set t := (-(planeOfCoeffs n d).offset - dot3 (planeOfCoeffs n d).normal o) /
      ((n.x * r.x + n.y * r.y + n.z * r.z) / (norm3 n ^ 2 * norm3 r)) with hT
    constructor
    · refine ⟨t / norm3 r, ?_⟩
      rw [← hp]
      unfold addScaled
      simp only [V3.mk.injEq]
      refine ⟨?_, ?_, ?_⟩ <;> field_simp
    · rw [← hp, ← norm_len]
      unfold addScaled
      simp only []
      have e1 : t * (n.x * r.x + n.y * r.y + n.z * r.z) =
          (-(planeOfCoeffs n d).offset - dot3 (planeOfCoeffs n d).normal o) * (norm3 n ^ 2 * norm3 r) := by
        rw [hT]
        field_simp
      have e2 : (-(planeOfCoeffs n d).offset - dot3 (planeOfCoeffs n d).normal o) * norm3 n ^ 2 =
          -(d * norm3 n) - (n.x * o.x + n.y * o.y + n.z * o.z) := by
        unfold planeOfCoeffs dot3
        simp only []
        field_simp
      have e3 : n.x * (o.x + t * (r.x / norm3 r)) + n.y * (o.y + t * (r.y / norm3 r)) +
          n.z * (o.z + t * (r.z / norm3 r)) + d * norm3 n =
          (n.x * o.x + n.y * o.y + n.z * o.z) + (t * (n.x * r.x + n.y * r.y + n.z * r.z)) / norm3 r + d * norm3 n := by
        field_simp
        ring
      rw [e3, e1]
      have e4 : (-(planeOfCoeffs n d).offset - dot3 (planeOfCoeffs n d).normal o) * (norm3 n ^ 2 * norm3 r) / norm3 r =
          (-(planeOfCoeffs n d).offset - dot3 (planeOfCoeffs n d).normal o) * norm3 n ^ 2 := by
        field_simp
      rw [e4, e2]
      ring

/-- C59 for unit normals: no intersection exactly for parallel rays, otherwise a point of both plane and ray. -/
theorem C59_ray_partial (n : V3 ℝ) (d : ℝ) (o r : V3 ℝ) (hn : len3 n = 1) (hx : n.x ≠ 0) (hr : r ≠ ⟨0, 0, 0⟩) :
    ((planeOfCoeffs n d).rayIntersection o r = none ↔ n.x * r.x + n.y * r.y + n.z * r.z = 0) ∧
    ∀ p, (planeOfCoeffs n d).rayIntersection o r = some p → OnRayLine o r p ∧ OnPlane n d p := by
  obtain ⟨h1, h2⟩ := ray_general n d o r hx hr
  refine ⟨h1, fun p hp => ⟨(h2 p hp).1, ?_⟩⟩
  have := (h2 p hp).2
  rw [hn] at this
  unfold OnPlane
  linarith

/-- C59 fails for other scalings: unless the normal has length one or the plane contains the origin, the point returned
is never on the plane. -/
theorem C59_ray_false (n : V3 ℝ) (d : ℝ) (o r p : V3 ℝ) (hx : n.x ≠ 0) (hr : r ≠ ⟨0, 0, 0⟩)
    (hp : (planeOfCoeffs n d).rayIntersection o r = some p) (hn : len3 n ≠ 1) (hd : d ≠ 0) : ¬ OnPlane n d p := by
  intro h
  have := ((ray_general n d o r hx hr).2 p hp).2
  unfold OnPlane at h
  have h' : d * (len3 n - 1) = 0 := by linarith
  rcases mul_eq_zero.1 h' with h' | h'
  · exact hd h'
  · exact hn (by linarith)

/-- C59: `fit_non_robust` of points on a common plane that does not contain the origin returns a plane that contains
none of them. -/
theorem C59_fit_false (svd : List (V3 ℝ) → V3 ℝ × ℝ) (points : List (V3 ℝ)) (n : V3 ℝ) (d : ℝ)
    (hs : svd points = (n, d)) (hu : n.x ^ 2 + n.y ^ 2 + n.z ^ 2 + d ^ 2 = 1) (hd : d ≠ 0) (hn : n ≠ ⟨0, 0, 0⟩)
    (p : V3 ℝ) (hp : OnPlane n d p) : ¬ OnPlane (fitNonRobust svd points).1 (fitNonRobust svd points).2 p := by
  intro h
  have hpos := norm_pos n hn
  unfold fitNonRobust at h
  simp only [hs] at h
  unfold OnPlane planeOfCoeffs at h
  unfold OnPlane at hp
  simp only [] at h
  have e : n.x * p.x + n.y * p.y + n.z * p.z + d * norm3 n = 0 := by
    have : n.x / norm3 n / norm3 n * p.x + n.y / norm3 n / norm3 n * p.y + n.z / norm3 n / norm3 n * p.z + d / norm3 n =
        (n.x * p.x + n.y * p.y + n.z * p.z + d * norm3 n) / (norm3 n * norm3 n) := by
      field_simp
    rw [this] at h
    rcases div_eq_zero_iff.1 h with h | h
    · exact h
    · nlinarith
  have h' : d * (norm3 n - 1) = 0 := by linarith
  rcases mul_eq_zero.1 h' with h' | h'
  · exact hd h'
  · have h1 : norm3 n = 1 := by linarith
    have := norm_sq n
    rw [h1] at this
    unfold dot3 at this
    apply hd
    nlinarith

example : len3 ⟨3 / 5, 4 / 5, 0⟩ = 1 := by
  unfold len3
  rw [Real.sqrt_eq_one]
  norm_num

example : (⟨3 / 5, 0, 0⟩ : V3 ℝ).x ^ 2 + (⟨3 / 5, 0, 0⟩ : V3 ℝ).y ^ 2 + (⟨3 / 5, 0, 0⟩ : V3 ℝ).z ^ 2 + (4 / 5) ^ 2 = 1 := by
  norm_num

/-! ## C60 -/

private theorem atan2_unit (y x : ℝ) (h : x ^ 2 + y ^ 2 = 1) : Real.cos (atan2 y x) = x ∧ Real.sin (atan2 y x) = y := by
  have hn : ‖(⟨x, y⟩ : ℂ)‖ = 1 := by
    rw [Complex.norm_def, Complex.normSq_mk, Real.sqrt_eq_one]
    linarith
  have h1 := Complex.norm_mul_cos_arg ⟨x, y⟩
  have h2 := Complex.norm_mul_sin_arg ⟨x, y⟩
  rw [hn, one_mul] at h1 h2
  exact ⟨h1, h2⟩

private theorem product (psi theta phi : ℝ) : elemRotZ phi * elemRotY theta * elemRotX psi =
    !![Real.cos phi * Real.cos theta,
        Real.cos phi * Real.sin theta * Real.sin psi - Real.sin phi * Real.cos psi,
        Real.cos phi * Real.sin theta * Real.cos psi + Real.sin phi * Real.sin psi;
      Real.sin phi * Real.cos theta,
        Real.sin phi * Real.sin theta * Real.sin psi + Real.cos phi * Real.cos psi,
        Real.sin phi * Real.sin theta * Real.cos psi - Real.cos phi * Real.sin psi;
      -Real.sin theta, Real.cos theta * Real.sin psi, Real.cos theta * Real.cos psi] := by
  unfold elemRotX elemRotY elemRotZ
  ext i j
  fin_cases i <;> fin_cases j <;> simp [Matrix.mul_apply, Fin.sum_univ_three] <;> ring

private theorem rot_facts (R : Matrix (Fin 3) (Fin 3) ℝ) (h : IsRotation R) :
    (R 2 0 ^ 2 + R 2 1 ^ 2 + R 2 2 ^ 2 = 1) ∧ (R 0 0 ^ 2 + R 1 0 ^ 2 + R 2 0 ^ 2 = 1) ∧
    (R 0 0 ^ 2 + R 0 1 ^ 2 + R 0 2 ^ 2 = 1) ∧
    R 0 1 = -(R 1 0 * R 2 2 - R 1 2 * R 2 0) ∧ R 0 2 = R 1 0 * R 2 1 - R 1 1 * R 2 0 ∧
    R 1 1 = R 0 0 * R 2 2 - R 0 2 * R 2 0 ∧ R 1 2 = -(R 0 0 * R 2 1 - R 0 1 * R 2 0) := by
  obtain ⟨h1, h2⟩ := h
  have h1' : R.transpose * R = 1 := mul_eq_one_comm.1 h1
  have hadj : R.adjugate = R.transpose := by
    calc R.adjugate = R.adjugate * (R * R.transpose) := by rw [h1, Matrix.mul_one]
      _ = (R.adjugate * R) * R.transpose := by rw [Matrix.mul_assoc]
      _ = R.transpose := by rw [Matrix.adjugate_mul, h2, one_smul, Matrix.one_mul]
  have r2 := congrFun (congrFun h1 2) 2
  have r0 := congrFun (congrFun h1 0) 0
  have c0 := congrFun (congrFun h1' 0) 0
  simp only [Matrix.mul_apply, Fin.sum_univ_three, Matrix.transpose_apply, Matrix.one_apply_eq] at r2 r0 c0
  have a := fun i j => congrFun (congrFun hadj i) j
  rw [Matrix.adjugate_fin_three] at a
  have a10 := a 1 0
  have a20 := a 2 0
  have a11 := a 1 1
  have a21 := a 2 1
  simp [Matrix.transpose_apply] at a10 a20 a11 a21
  refine ⟨by linarith, by linarith, by linarith, by linarith, by linarith, by linarith, by linarith⟩

/-- C60 away from gimbal lock: the angles reproduce the matrix. -/
theorem C60_regular_partial (R : Matrix (Fin 3) (Fin 3) ℝ) (h : IsRotation R) (h1 : ¬ isClose (R 2 0) (-1))
    (h2 : ¬ isClose (R 2 0) 1) :
    elemRotZ (eulerAngles R).2.2 * elemRotY (eulerAngles R).2.1 * elemRotX (eulerAngles R).1 = R := by
  obtain ⟨u1, u2, -, e1, e2, e3, e4⟩ := rot_facts R h
  have hs1 : R 2 0 ≠ -1 := by
    intro he; apply h1; unfold isClose; rw [he]; norm_num
  have hs2 : R 2 0 ≠ 1 := by
    intro he; apply h2; unfold isClose; rw [he]; norm_num
  have hb : R 2 0 ^ 2 < 1 := by
    rcases lt_or_eq_of_le (show R 2 0 ^ 2 ≤ 1 by nlinarith [sq_nonneg (R 2 1), sq_nonneg (R 2 2)]) with h' | h'
    · exact h'
    · rcases mul_eq_zero.1 (show (R 2 0 - 1) * (R 2 0 + 1) = 0 by linear_combination h') with h'' | h''
      · exact absurd (by linarith) hs2
      · exact absurd (by linarith) hs1
  have hlo : -1 ≤ R 2 0 := by nlinarith
  have hhi : R 2 0 ≤ 1 := by nlinarith
  have hsin : Real.sin (-Real.arcsin (R 2 0)) = -R 2 0 := by rw [Real.sin_neg, Real.sin_arcsin hlo hhi]
  have hcos : Real.cos (-Real.arcsin (R 2 0)) = Real.sqrt (1 - R 2 0 ^ 2) := by rw [Real.cos_neg, Real.cos_arcsin]
  set c := Real.sqrt (1 - R 2 0 ^ 2) with hc
  have hcpos : 0 < c := Real.sqrt_pos.2 (by linarith)
  have hcsq : c ^ 2 = 1 - R 2 0 ^ 2 := Real.sq_sqrt (by linarith)
  obtain ⟨p1, p2⟩ := atan2_unit (R 2 1 / c) (R 2 2 / c) (by
    rw [div_pow, div_pow, ← add_div, hcsq, div_eq_one_iff_eq (by linarith)]; linarith)
  obtain ⟨q1, q2⟩ := atan2_unit (R 1 0 / c) (R 0 0 / c) (by
    rw [div_pow, div_pow, ← add_div, hcsq, div_eq_one_iff_eq (by linarith)]; linarith)
  have he : eulerAngles R = (atan2 (R 2 1 / c) (R 2 2 / c), -Real.arcsin (R 2 0), atan2 (R 1 0 / c) (R 0 0 / c)) := by
    unfold eulerAngles
    rw [if_neg h1, if_neg h2]
    simp only [hcos]
  rw [he, product]
  simp only [hsin, hcos, p1, p2, q1, q2]
  have g01 : R 0 0 / c * -R 2 0 * (R 2 1 / c) - R 1 0 / c * (R 2 2 / c) = R 0 1 := by
    field_simp
    rw [hcsq]
    linear_combination -e1 - R 2 0 * e4
  have g02 : R 0 0 / c * -R 2 0 * (R 2 2 / c) + R 1 0 / c * (R 2 1 / c) = R 0 2 := by
    field_simp
    rw [hcsq]
    linear_combination -e2 + R 2 0 * e3
  have g11 : R 1 0 / c * -R 2 0 * (R 2 1 / c) + R 0 0 / c * (R 2 2 / c) = R 1 1 := by
    field_simp
    rw [hcsq]
    linear_combination -e3 + R 2 0 * e2
  have g12 : R 1 0 / c * -R 2 0 * (R 2 2 / c) - R 0 0 / c * (R 2 1 / c) = R 1 2 := by
    field_simp
    rw [hcsq]
    linear_combination -e4 - R 2 0 * e1
  have g00 : R 0 0 / c * c = R 0 0 := by field_simp
  have g10 : R 1 0 / c * c = R 1 0 := by field_simp
  have g21 : c * (R 2 1 / c) = R 2 1 := by field_simp
  have g22 : c * (R 2 2 / c) = R 2 2 := by field_simp
  rw [g01, g02, g11, g12, g00, g10, g21, g22, neg_neg]
  ext i j
  fin_cases i <;> fin_cases j <;> rfl

/-- C60 at gimbal lock: the angles reproduce the matrix. -/
theorem C60_gimbal_partial (R : Matrix (Fin 3) (Fin 3) ℝ) (h : IsRotation R) (h1 : R 2 0 = -1 ∨ R 2 0 = 1) :
    elemRotZ (eulerAngles R).2.2 * elemRotY (eulerAngles R).2.1 * elemRotX (eulerAngles R).1 = R := by
  obtain ⟨u1, u2, u3, e1, e2, e3, e4⟩ := rot_facts R h
  have hsq : R 2 0 ^ 2 = 1 := by rcases h1 with h1 | h1 <;> rw [h1] <;> norm_num
  have z21 : R 2 1 = 0 := by nlinarith [sq_nonneg (R 2 1), sq_nonneg (R 2 2)]
  have z22 : R 2 2 = 0 := by nlinarith [sq_nonneg (R 2 1), sq_nonneg (R 2 2)]
  have z00 : R 0 0 = 0 := by nlinarith [sq_nonneg (R 0 0), sq_nonneg (R 1 0)]
  have z10 : R 1 0 = 0 := by nlinarith [sq_nonneg (R 0 0), sq_nonneg (R 1 0)]
  rcases h1 with h1 | h1
  · obtain ⟨p1, p2⟩ := atan2_unit (R 0 1) (R 0 2) (by nlinarith)
    have hcl : isClose (R 2 0) (-1) := by unfold isClose; rw [h1]; norm_num
    have he : eulerAngles R = (atan2 (R 0 1) (R 0 2), Real.pi / 2, 0) := by unfold eulerAngles; rw [if_pos hcl]
    rw [he, product]
    simp only [p1, p2, Real.sin_pi_div_two, Real.cos_pi_div_two, Real.sin_zero, Real.cos_zero]
    rw [z00, z22, h1] at e3
    rw [z00, z21, h1] at e4
    ext i j
    fin_cases i <;> fin_cases j <;> simp [z00, z10, z21, z22, h1] <;> linarith
  · obtain ⟨p1, p2⟩ := atan2_unit (-R 0 1) (-R 0 2) (by nlinarith)
    have hcl : isClose (R 2 0) 1 := by unfold isClose; rw [h1]; norm_num
    have hncl : ¬ isClose (R 2 0) (-1) := by unfold isClose; rw [h1]; norm_num
    have he : eulerAngles R = (atan2 (-R 0 1) (-R 0 2), -(Real.pi / 2), 0) := by
      unfold eulerAngles; rw [if_neg hncl, if_pos hcl]
    rw [he, product]
    simp only [p1, p2, Real.sin_neg, Real.cos_neg, Real.sin_pi_div_two, Real.cos_pi_div_two, Real.sin_zero,
      Real.cos_zero]
    rw [z00, z22, h1] at e3
    rw [z00, z21, h1] at e4
    ext i j
    fin_cases i <;> fin_cases j <;> simp [z00, z10, z21, z22, h1] <;> linarith

/-- C60 fails close to gimbal lock: no matrix there is reproduced. -/
theorem C60_near_gimbal_false (R : Matrix (Fin 3) (Fin 3) ℝ) (hc : isClose (R 2 0) (-1) ∨ isClose (R 2 0) 1)
    (h1 : R 2 0 ≠ -1) (h2 : R 2 0 ≠ 1) :
    elemRotZ (eulerAngles R).2.2 * elemRotY (eulerAngles R).2.1 * elemRotX (eulerAngles R).1 ≠ R := by
  intro h
  have h' := congrFun (congrFun h 2) 0
  rw [product] at h'
  unfold eulerAngles at h'
  by_cases hl : isClose (R 2 0) (-1)
  · rw [if_pos hl] at h'
    simp at h'
    exact h1 h'.symm
  · rw [if_neg hl, if_pos (hc.resolve_left hl)] at h'
    simp at h'
    exact h2 h'.symm

/-- Such rotations exist. -/
theorem C60_near_gimbal_exists_false : ∃ R : Matrix (Fin 3) (Fin 3) ℝ, IsRotation R ∧ isClose (R 2 0) (-1) ∧
    R 2 0 ≠ -1 ∧ R 2 0 ≠ 1 := by
  have hs : Real.sin (Real.arcsin (999999 / 1000000)) = 999999 / 1000000 :=
    Real.sin_arcsin (by norm_num) (by norm_num)
  refine ⟨elemRotY (Real.arcsin (999999 / 1000000)), ⟨?_, ?_⟩, ?_, ?_, ?_⟩
  · have := Real.sin_sq_add_cos_sq (Real.arcsin (999999 / 1000000))
    unfold elemRotY
    ext i j
    fin_cases i <;> fin_cases j <;> simp [Matrix.mul_apply, Fin.sum_univ_three] <;> linarith
  · have := Real.sin_sq_add_cos_sq (Real.arcsin (999999 / 1000000))
    unfold elemRotY
    rw [Matrix.det_fin_three]
    simp
    linarith
  · unfold isClose elemRotY
    simp
    rw [hs]
    norm_num [abs_le]
  · unfold elemRotY; simp; rw [hs]; norm_num
  · unfold elemRotY; simp; rw [hs]; norm_num

example : IsRotation (1 : Matrix (Fin 3) (Fin 3) ℝ) ∧ ¬ isClose ((1 : Matrix (Fin 3) (Fin 3) ℝ) 2 0) (-1) := by
  refine ⟨⟨by simp, by simp⟩, ?_⟩
  unfold isClose
  simp
  norm_num

end Oplab.Props
