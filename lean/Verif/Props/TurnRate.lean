import Verif.Props.DeadReckoning
import Verif.Props.Rotation
import Verif.Spec.TurnRate

/-! C218: the rates given to the lever arm correction. -/

namespace Oplab.Props
open Oplab Oplab.Spec Real

private theorem turn_rates {roll pitch y0 w : ℝ} {os : List (Attitude ℝ)} {i : ℕ} {u : V3 ℝ} (h3 : 3 ≤ os.length)
    (hs : os.Pairwise fun a b => a.t < b.t) (ht : SteadyTurn roll pitch y0 w os) (hi : i < os.length)
    (hu : computeAngularSpeeds os i = .ok u) : u = ⟨0, 0, w⟩ := by
  obtain ⟨u', k, m, a, b, hr, ha, hb, k1, k2, m1, m2, hlt, -, -, e1, e2, ⟨n, e3⟩, e4⟩ := C08_rates_partial os i hi (Or.inl h3) hs
  rw [hr] at hu
  cases hu
  have ham := List.mem_of_getElem? ha
  have hbm := List.mem_of_getElem? hb
  have hd : b.t - a.t ≠ 0 := sub_ne_zero.2 hlt.ne'
  rw [ht.roll a ham, ht.roll b hbm, sub_self] at e1
  rw [ht.pitch a ham, ht.pitch b hbm, sub_self] at e2
  obtain ⟨⟨a0, a1⟩, na, hna⟩ := ht.yaw a ham
  obtain ⟨⟨b0, b1⟩, nb, hnb⟩ := ht.yaw b hbm
  have h180 : |w * (b.t - a.t)| < 180 := by
    have hkm : k < m := by
      rcases Nat.lt_or_ge k m with h | h
      · exact h
      · have : k = m := by omega
        subst this
        rw [ha] at hb
        cases hb
        exact absurd hlt (lt_irrefl _)
    have hc : m = k + 1 ∨ m = k + 2 := by omega
    rcases hc with rfl | rfl
    · exact lt_trans (ht.slow k a b ha hb) (by norm_num)
    · obtain ⟨c, hc⟩ : ∃ c, os[k + 1]? = some c := ⟨_, List.getElem?_eq_getElem (by
        have := (List.getElem?_eq_some_iff.1 hb).1
        omega)⟩
      have s1 := ht.slow k a c ha hc
      have s2 := ht.slow (k + 1) c b hc hb
      have : w * (b.t - a.t) = w * (c.t - a.t) + w * (b.t - c.t) := by ring
      rw [this]
      exact lt_of_le_of_lt (abs_add_le _ _) (by linarith)
  have h360 : |b.yaw - a.yaw| ≤ 360 := by
    rw [abs_le]
    constructor <;> linarith
  have h5 := e4 h360
  have e5 : u.z * (b.t - a.t) = w * (b.t - a.t) + 360 * ((nb - na + n : ℤ) : ℝ) := by
    rw [e3, hna, hnb]
    push_cast
    ring
  have hz : nb - na + n = 0 := by
    rw [e5] at h5
    have := abs_le.1 h5
    have h6 := abs_lt.1 h180
    have g1 : (-1 : ℝ) < ((nb - na + n : ℤ) : ℝ) := by linarith
    have g2 : ((nb - na + n : ℤ) : ℝ) < 1 := by linarith
    have g1' : -1 < nb - na + n := by exact_mod_cast g1
    have g2' : nb - na + n < 1 := by exact_mod_cast g2
    omega
  rw [hz] at e5
  obtain ⟨ux, uy, uz⟩ := u
  simp only at e1 e2 e5
  have e6 : (uz - w) * (b.t - a.t) = 0 := by
    simp at e5
    rcases e5 with h | h
    · rw [h]; ring
    · exact absurd h hd
  rw [(mul_eq_zero.1 e1).resolve_right hd, (mul_eq_zero.1 e2).resolve_right hd, sub_eq_zero.1 ((mul_eq_zero.1 e6).resolve_right hd)]

/-- C218 (partial): in a steady turn the rates are right exactly if the vehicle is level (or not turning). Missing: every
other attitude. -/
theorem C218_level_partial (roll pitch y0 w : ℝ) (os : List (Attitude ℝ)) (i : ℕ) (o : Attitude ℝ) (u : V3 ℝ) (h3 : 3 ≤ os.length)
    (hs : os.Pairwise fun a b => a.t < b.t) (ht : SteadyTurn roll pitch y0 w os) (ho : os[i]? = some o)
    (hu : computeAngularSpeeds os i = .ok u) :
    TurnsAboutVertical o w u ↔ w = 0 ∨ cos (rad roll) * cos (rad pitch) = 1 := by
  have hi := (List.getElem?_eq_some_iff.1 ho).1
  rw [turn_rates h3 hs ht hi hu]
  have hm := List.mem_of_getElem? ho
  simp only [TurnsAboutVertical, ht.roll o hm, ht.pitch o hm]
  constructor
  · intro h
    have hz := congrArg V3.z h
    simp only [rotX, rotY, rotZ] at hz
    by_cases hw : w = 0
    · exact Or.inl hw
    · right
      refine mul_right_cancel₀ hw ?_
      linear_combination hz
  · rintro (rfl | h)
    · simp [rotX, rotY, rotZ]
    · have hr := sin_sq_add_cos_sq (rad roll)
      have hp := sin_sq_add_cos_sq (rad pitch)
      have c1 : cos (rad roll) ^ 2 = 1 := by
        have h1 := cos_sq_le_one (rad roll)
        have h2 := cos_sq_le_one (rad pitch)
        have h4 : cos (rad roll) ^ 2 * cos (rad pitch) ^ 2 = 1 := by rw [← mul_pow, h]; norm_num
        nlinarith [sq_nonneg (cos (rad roll)), sq_nonneg (cos (rad pitch))]
      have c2 : cos (rad pitch) ^ 2 = 1 := by
        have h4 : cos (rad roll) ^ 2 * cos (rad pitch) ^ 2 = 1 := by rw [← mul_pow, h]; norm_num
        rw [c1, one_mul] at h4
        exact h4
      have s1 : sin (rad roll) = 0 := by
        have : sin (rad roll) ^ 2 = 0 := by linarith
        exact pow_eq_zero_iff (two_ne_zero) |>.1 this
      have s2 : sin (rad pitch) = 0 := by
        have : sin (rad pitch) ^ 2 = 0 := by linarith
        exact pow_eq_zero_iff (two_ne_zero) |>.1 this
      simp only [rotX, rotY, rotZ, s1, s2, V3.mk.injEq]
      refine ⟨by ring, by ring, ?_⟩
      linear_combination w * h

private def banked : List (Attitude ℝ) := [⟨0, 60, 0, 0⟩, ⟨1, 60, 0, 10⟩, ⟨2, 60, 0, 20⟩]

private theorem banked_turn : SteadyTurn 60 0 0 10 banked where
  roll := by simp [banked]
  pitch := by simp [banked]
  yaw := by
    intro o ho
    simp [banked] at ho
    rcases ho with rfl | rfl | rfl
    · exact ⟨by norm_num, 0, by norm_num⟩
    · exact ⟨by norm_num, 0, by norm_num⟩
    · exact ⟨by norm_num, 0, by norm_num⟩
  slow := by
    intro i a b ha hb
    match i with
    | 0 => simp [banked] at ha hb; subst ha; subst hb; norm_num
    | 1 => simp [banked] at ha hb; subst ha; subst hb; norm_num
    | _ + 2 => simp [banked] at hb

/-- C218 as stated is false: for a vehicle that rolls by 60 degrees and turns by 10 degrees per second. -/
theorem C218_banked_false : ¬ RatesAboutOwnAxes := by
  intro h
  obtain ⟨u, _, _, _, _, hu, -⟩ := C08_rates_partial banked 1 (by simp [banked]) (Or.inl (by simp [banked])) (by simp [banked])
  have hb := h 60 0 0 10 banked 1 ⟨1, 60, 0, 10⟩ u (by simp [banked]) (by simp [banked]) banked_turn rfl hu
  rcases (C218_level_partial 60 0 0 10 banked 1 _ u (by simp [banked]) (by simp [banked]) banked_turn rfl hu).1 hb with h0 | h0
  · norm_num at h0
  · have h60 : rad 60 = π / 3 := by rw [rad]; ring
    have h00 : rad 0 = 0 := by rw [rad]; ring
    rw [h60, h00, cos_zero, cos_pi_div_three] at h0
    norm_num at h0

/-- A level turn. -/
example : ∃ u, computeAngularSpeeds ([⟨0, 0, 0, 350⟩, ⟨1, 0, 0, 0⟩, ⟨2, 0, 0, 10⟩] : List (Attitude ℝ)) 1 = .ok u ∧ u.z = 10 := by
  refine ⟨⟨0, 0, 10⟩, ?_, rfl⟩
  norm_num [computeAngularSpeeds, angularSamples, bind, Except.bind]

end Oplab.Props
