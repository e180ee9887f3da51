import Mathlib.Algebra.BigOperators.Fin
import Mathlib.Algebra.BigOperators.Group.Finset.Basic
import Mathlib.Data.Int.Cast.Lemmas
import Mathlib.Algebra.Order.Ring.Cast
import Verif.Model.DeadReckoning
import Verif.Props.SensorList

/-! Properties C08 and C09. -/

namespace Oplab.Props
open Oplab Oplab.Spec

set_option linter.unusedSectionVars false
variable {K : Type} [Field K] [LinearOrder K] [IsStrictOrderedRing K]

/-! ## C08 angular rates -/

/-- What C08 asks for: a rate exists at every index of every list of at least two samples at distinct
times. -/
def RatesDefined (K : Type) [Field K] [LinearOrder K] : Prop :=
  ∀ (o : List (Attitude K)) (i : Nat), 2 ≤ o.length → i < o.length →
    o.Pairwise (fun a b => a.t < b.t) → ∃ r, computeAngularSpeeds o i = .ok r

/-- C08 as stated is false: at the last index of every two-sample list the function fails. -/
theorem C08_defined_false : ¬ RatesDefined ℚ := by
  intro h
  obtain ⟨r, hr⟩ := h [⟨0, 0, 0, 0⟩, ⟨1, 0, 0, 0⟩] 1 (by simp) (by simp) (by simp)
  simp [computeAngularSpeeds, angularSamples, bind, Except.bind] at hr

/-- C08 (partial): with at least three samples in increasing time order (or at index 0 of at least two) a
rate exists at every index; it is the difference quotient of two samples that enclose the index and are
at most one step away from it, with the heading difference changed by a whole turn if needed.
Missing: the second of exactly two samples. -/
theorem C08_rates_partial (o : List (Attitude K)) (i : Nat) (hi : i < o.length)
    (h3 : 3 ≤ o.length ∨ (i = 0 ∧ 2 ≤ o.length)) (hs : o.Pairwise (fun a b => a.t < b.t)) :
    ∃ (r : V3 K) (k m : Nat) (a b : Attitude K), computeAngularSpeeds o i = .ok r ∧
      o[k]? = some a ∧ o[m]? = some b ∧ k ≤ i ∧ i ≤ k + 1 ∧ i ≤ m ∧ m ≤ i + 1 ∧ a.t < b.t ∧
      (0 < i → k + 1 = i) ∧ (i + 1 < o.length → m = i + 1) ∧
      r.x * (b.t - a.t) = b.roll - a.roll ∧ r.y * (b.t - a.t) = b.pitch - a.pitch ∧
      (∃ n : ℤ, r.z * (b.t - a.t) = b.yaw - a.yaw + 360 * n) ∧
      (|b.yaw - a.yaw| ≤ 360 → |r.z * (b.t - a.t)| ≤ 180) := by
  have key : ∃ (k m : Nat) (a b : Attitude K), angularSamples o i = .ok (a, b) ∧
      o[k]? = some a ∧ o[m]? = some b ∧ k ≤ i ∧ i ≤ k + 1 ∧ i ≤ m ∧ m ≤ i + 1 ∧ k < m ∧
      (0 < i → k + 1 = i) ∧ (i + 1 < o.length → m = i + 1) := by
    by_cases h1 : 1 ≤ i ∧ i + 1 < o.length
    · refine ⟨i - 1, i + 1, o[i - 1], o[i + 1], ?_, List.getElem?_eq_getElem (by omega),
        List.getElem?_eq_getElem (by omega), by omega, by omega, by omega, by omega, by omega,
        by omega, by omega⟩
      simp only [angularSamples, if_pos h1, List.getElem?_eq_getElem (show i - 1 < o.length by omega),
        List.getElem?_eq_getElem h1.2]
    · by_cases h2 : 1 < i ∧ i + 1 = o.length
      · refine ⟨i - 1, i, o[i - 1], o[i], ?_, List.getElem?_eq_getElem (by omega),
          List.getElem?_eq_getElem (by omega), by omega, by omega, by omega, by omega, by omega,
          by omega, by omega⟩
        simp only [angularSamples, if_neg h1, if_pos h2,
          List.getElem?_eq_getElem (show i - 1 < o.length by omega), List.getElem?_eq_getElem hi]
      · have h0 : i = 0 := by omega
        subst h0
        have hl : 0 + 1 < o.length := by omega
        refine ⟨0, 1, o[0], o[1], ?_, List.getElem?_eq_getElem (by omega),
          List.getElem?_eq_getElem (by omega), by omega, by omega, by omega, by omega, by omega,
          by omega, by omega⟩
        simp only [angularSamples, if_neg h1, if_neg h2, if_pos, List.getElem?_eq_getElem hi,
          List.getElem?_eq_getElem hl]
  obtain ⟨k, m, a, b, hsel, ha, hb, g1, g2, g3, g4, g5, g6, g7⟩ := key
  have hlt : a.t < b.t := by
    obtain ⟨hk, rfl⟩ := List.getElem?_eq_some_iff.mp ha
    obtain ⟨hm, rfl⟩ := List.getElem?_eq_some_iff.mp hb
    exact List.pairwise_iff_getElem.mp hs k m hk hm g5
  have hdt : b.t - a.t ≠ 0 := (sub_pos.mpr hlt).ne'
  refine ⟨⟨(b.roll - a.roll) / (b.t - a.t), (b.pitch - a.pitch) / (b.t - a.t),
    (if b.yaw - a.yaw > 180 then b.yaw - a.yaw - 360 else if b.yaw - a.yaw < -180 then b.yaw - a.yaw + 360
      else b.yaw - a.yaw) / (b.t - a.t)⟩, k, m, a, b, ?_, ha, hb, g1, g2, g3, g4, hlt, g6, g7, ?_, ?_, ?_, ?_⟩
  · simp only [computeAngularSpeeds, hsel, bind, Except.bind, if_neg hdt]
  · field_simp
  · field_simp
  · rw [div_mul_cancel₀ _ hdt]
    split
    · exact ⟨-1, by push_cast; ring⟩
    · split
      · exact ⟨1, by push_cast; ring⟩
      · exact ⟨0, by simp⟩
  · intro h
    rw [div_mul_cancel₀ _ hdt]
    rw [abs_le] at h
    split
    · rw [abs_le]; constructor <;> linarith
    · split
      · rw [abs_le]; constructor <;> linarith
      · rw [abs_le]; constructor <;> linarith

/-- C08: a steady turn is measured exactly, across north as well: if every heading is `y0 + w * t` up to whole
turns and in [0, 360), and the vehicle turns less than 180 degrees over two samples, the yaw rate
returned is exactly `w`. -/
theorem C08_steady_turn_exact (o : List (Attitude K)) (i : Nat) (y0 w : K) (r : V3 K)
    (hr : computeAngularSpeeds o i = .ok r)
    (hyaw : ∀ a ∈ o, (0 ≤ a.yaw ∧ a.yaw < 360) ∧ ∃ n : ℤ, a.yaw = y0 + w * a.t + 360 * n)
    (hslow : ∀ a ∈ o, ∀ b ∈ o, angularSamples o i = .ok (a, b) → |w * (b.t - a.t)| < 180) :
    r.z = w := by
  simp only [computeAngularSpeeds] at hr
  cases hsel : angularSamples o i with
  | error e => rw [hsel] at hr; simp [bind, Except.bind] at hr
  | ok ab =>
    obtain ⟨a, b⟩ := ab
    rw [hsel] at hr
    simp only [bind, Except.bind] at hr
    split at hr
    · simp at hr
    · rename_i hdt
      simp only [Except.ok.injEq] at hr
      subst hr
      have hmem : a ∈ o ∧ b ∈ o := by
        simp only [angularSamples] at hsel
        repeat' split at hsel
        all_goals simp at hsel
        all_goals
          rename_i h1 h2
          obtain ⟨rfl, rfl⟩ := hsel
          exact ⟨List.mem_of_getElem? h1, List.mem_of_getElem? h2⟩
      obtain ⟨⟨ha0, ha1⟩, na, hna⟩ := hyaw a hmem.1
      obtain ⟨⟨hb0, hb1⟩, nb, hnb⟩ := hyaw b hmem.2
      have hs := abs_lt.mp (hslow a hmem.1 b hmem.2 hsel)
      have hd : b.yaw - a.yaw = w * (b.t - a.t) + 360 * ((nb - na : ℤ) : K) := by
        rw [hnb, hna]; push_cast; ring
      have hzero : ∀ m : ℤ, -(360 : K) < 360 * (m : K) → 360 * (m : K) < 360 → m = 0 := by
        intro m h1 h2
        have h3 : (-1 : K) < (m : K) := by linarith
        have h4 : (m : K) < 1 := by linarith
        have h3' : -1 < m := by exact_mod_cast h3
        have h4' : m < 1 := by exact_mod_cast h4
        omega
      rw [div_eq_iff hdt]
      split
      · have : nb - na - 1 = 0 := by
          apply hzero <;> push_cast <;> push_cast at hd <;> linarith
        have h5 : ((nb - na : ℤ) : K) = 1 := by
          have : nb - na = 1 := by omega
          rw [this]; simp
        rw [h5] at hd; linarith
      · split
        · have : nb - na + 1 = 0 := by
            apply hzero <;> push_cast <;> push_cast at hd <;> linarith
          have h5 : ((nb - na : ℤ) : K) = -1 := by
            have : nb - na = -1 := by omega
            rw [this]; simp
          rw [h5] at hd; linarith
        · have : nb - na = 0 := by
            apply hzero <;> push_cast <;> push_cast at hd <;> linarith
          rw [this] at hd; simp at hd; linarith

/-- Crossing north at 20 deg/s. -/
example : computeAngularSpeeds (K := ℚ) [⟨0, 0, 0, 340⟩, ⟨1, 1, 2, 0⟩, ⟨2, 4, -2, 20⟩] 1
    = .ok ⟨2, -1, 20⟩ := by
  norm_num [computeAngularSpeeds, angularSamples, bind, Except.bind]

/-! ## C09 dead reckoning -/

/-- Trapezoidal sum of a velocity over the first `n` intervals. -/
def trapz (t v : Nat → K) (n : Nat) : K :=
  ∑ k ∈ Finset.range n, (t (k + 1) - t k) * (v k + v (k + 1)) / 2

private theorem reckon_spec (t vn ve : Nat → K) : ∀ (ss : List (VelSample K)) (m : Nat) (pos : K × K),
    (∀ k s, ss[k]? = some s → s = (⟨t (m + k + 1), vn (m + k + 1), ve (m + k + 1)⟩ : VelSample K)) →
    (reckonFrom ⟨t m, vn m, ve m⟩ pos ss).length = ss.length ∧
    ∀ k p, (reckonFrom ⟨t m, vn m, ve m⟩ pos ss)[k]? = some p →
      p = (pos.1 + ∑ j ∈ Finset.range (k + 1), (t (m + j + 1) - t (m + j)) * (vn (m + j) + vn (m + j + 1)) / 2,
           pos.2 + ∑ j ∈ Finset.range (k + 1), (t (m + j + 1) - t (m + j)) * (ve (m + j) + ve (m + j + 1)) / 2)
  | [], m, pos, _ => by simp [reckonFrom]
  | s :: ss, m, pos, h => by
    have hs := h 0 s (by simp)
    simp only [Nat.add_zero] at hs
    subst hs
    have hrest : ∀ k s, ss[k]? = some s →
        s = (⟨t (m + 1 + k + 1), vn (m + 1 + k + 1), ve (m + 1 + k + 1)⟩ : VelSample K) := by
      intro k s hk
      have := h (k + 1) s (by simpa using hk)
      rw [this]; congr 1 <;> congr 1 <;> omega
    simp only [reckonFrom, deadReckoning, List.length_cons]
    obtain ⟨hl, hp⟩ := reckon_spec t vn ve ss (m + 1)
      (((t (m + 1) - t m) * (vn m + vn (m + 1))) / 2 + pos.1,
       ((t (m + 1) - t m) * (ve m + ve (m + 1))) / 2 + pos.2) hrest
    refine ⟨by rw [hl], ?_⟩
    intro k p hk
    cases k with
    | zero =>
      simp at hk; subst hk
      simp [Finset.sum_range_succ]; constructor <;> ring
    | succ k =>
      simp only [List.getElem?_cons_succ] at hk
      rw [hp k p hk]
      simp only [Prod.mk.injEq]
      constructor
      · rw [Finset.sum_range_succ' _ (k + 1)]
        simp only [Nat.add_zero]
        rw [Finset.sum_congr rfl (g := fun j => (t (m + (j + 1) + 1) - t (m + (j + 1))) * (vn (m + (j + 1)) + vn (m + (j + 1) + 1)) / 2)
          (by intro j _; rw [show m + 1 + j = m + (j + 1) by omega])]
        ring
      · rw [Finset.sum_range_succ' _ (k + 1)]
        simp only [Nat.add_zero]
        rw [Finset.sum_congr rfl (g := fun j => (t (m + (j + 1) + 1) - t (m + (j + 1))) * (ve (m + (j + 1)) + ve (m + (j + 1) + 1)) / 2)
          (by intro j _; rw [show m + 1 + j = m + (j + 1) by omega])]
        ring

/-- C09: for every sampled time/velocity sequence of every length, the track has one position per sample and
the k-th position is the trapezoidal sum of the velocities up to sample k. -/
theorem C09_trapezoidal (t vn ve : Nat → K) (n : Nat) :
    ∃ track, reckonTrack ((List.range (n + 1)).map fun k => (⟨t k, vn k, ve k⟩ : VelSample K)) = .ok track
      ∧ track.length = n + 1
      ∧ ∀ k p, track[k]? = some p → p = (trapz t vn k, trapz t ve k) := by
  rw [List.range_succ_eq_map]
  simp only [List.map_cons, reckonTrack]
  have h : ∀ k s, (List.map (fun k => (⟨t k, vn k, ve k⟩ : VelSample K)) (List.map Nat.succ (List.range n)))[k]? = some s →
      s = (⟨t (0 + k + 1), vn (0 + k + 1), ve (0 + k + 1)⟩ : VelSample K) := by
    intro k s hk
    simp only [List.getElem?_map, Option.map_eq_some_iff] at hk
    obtain ⟨a, ⟨b, hb, rfl⟩, rfl⟩ := hk
    obtain ⟨_, rfl⟩ := List.getElem?_eq_some_iff.mp hb
    simp
  obtain ⟨hl, hp⟩ := reckon_spec t vn ve _ 0 (0, 0) h
  refine ⟨_, rfl, by rw [List.length_cons, hl]; simp, ?_⟩
  intro k p hk
  cases k with
  | zero => simp at hk; subst hk; simp [trapz]
  | succ k =>
    simp only [List.getElem?_cons_succ] at hk
    rw [hp k p hk]
    simp [trapz]

/-- C09: with velocity linear in time (in particular constant velocity) the trapezoidal displacement is the exact
integral. -/
theorem C09_exact_for_linear_velocity (t : Nat → K) (a b : K) (n : Nat) :
    trapz t (fun k => a + b * t k) n = a * (t n - t 0) + b * (t n ^ 2 - t 0 ^ 2) / 2 := by
  induction n with
  | zero => simp [trapz]
  | succ n ih =>
    simp only [trapz] at ih ⊢
    rw [Finset.sum_range_succ, ih]; ring

/-- C09: displacements add over consecutive pieces. -/
theorem C09_additive (t v : Nat → K) (m n : Nat) :
    trapz t v (m + n) = trapz t v m + trapz (fun k => t (m + k)) (fun k => v (m + k)) n := by
  induction n with
  | zero => simp [trapz]
  | succ n ih =>
    simp only [trapz] at ih ⊢
    rw [← Nat.add_assoc, Finset.sum_range_succ, ih, Finset.sum_range_succ]
    simp only [Nat.add_assoc]; ring

/-- C09: reversing all velocities reverses the displacement. -/
theorem C09_reversal (t v : Nat → K) (n : Nat) : trapz t (fun k => -v k) n = -trapz t v n := by
  simp only [trapz]
  rw [← Finset.sum_neg_distrib]
  apply Finset.sum_congr rfl
  intros; ring

/-- C09: an empty navigation list fails instead of producing a track. -/
theorem C09_empty : reckonTrack ([] : List (VelSample K)) = .error .indexError := rfl

example : reckonTrack (K := ℚ) [⟨0, 1, 0⟩, ⟨2, 3, 0⟩, ⟨3, 3, 4⟩] = .ok [(0, 0), (4, 0), (7, 2)] := by
  norm_num [reckonTrack, reckonFrom, deadReckoning]

/-- C09: the vehicle position is the DVL position displaced by the rotated vector from the DVL to the origin; the
depth likewise from the depth sensor; altitude decreases by the downward component; attitude is
untouched. -/
theorem C09_centre_offset (origin dvl dep : V3 ℝ) (s : CentrePose) :
    let R := fun v => rotZ (rad s.yaw) (rotY (rad s.pitch) (rotX (rad s.roll) v))
    let c := toCentre origin dvl dep s
    c.northings = s.northings + (R (sub origin dvl)).x ∧
    c.eastings = s.eastings + (R (sub origin dvl)).y ∧
    c.altitude = s.altitude - (R (sub origin dvl)).z ∧
    c.depth = s.depth + (R (sub origin dep)).z ∧
    c.roll = s.roll ∧ c.pitch = s.pitch ∧ c.yaw = s.yaw := by
  simp only [← C01_is_zyx_rotation, toCentre, sub, and_self]

end Oplab.Props
