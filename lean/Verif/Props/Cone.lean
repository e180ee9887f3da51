import Verif.Spec.Cone

/-!
C210: rotations about an axis and cones of the laser calibration.
-/

namespace Oplab.Props
open Oplab Oplab.Spec Real

private theorem dot_eq (a b : V3 ℝ) : dot3 a b = dot a b := rfl

private theorem unit_of_len (k : V3 ℝ) (hk : len k = 1) : unit3 k = k := by
  have h : norm3 k = 1 := hk
  unfold unit3
  rw [h]
  simp

private theorem dot_one (k : V3 ℝ) (hk : len k = 1) : k.x * k.x + k.y * k.y + k.z * k.z = 1 := by
  have h1 : sqrt (dot k k) = 1 := hk
  have := Real.sqrt_eq_one.mp h1
  exact this

/-- C210: the matrix is the rotation about the axis by the angle, counterclockwise, whatever the length of the axis. -/
theorem C210_rotation (axis : V3 ℝ) (theta : ℝ) (x : V3 ℝ) (h : axis ≠ ⟨0, 0, 0⟩) :
    rotAxis axis theta x = rotateAbout (smul (1 / len axis) axis) theta x := by
  have hp : 0 < dot axis axis := by
    by_contra hc
    apply h
    have e : axis.x * axis.x + axis.y * axis.y + axis.z * axis.z ≤ 0 := not_lt.mp hc
    have h1 : axis.x = 0 := by nlinarith [mul_self_nonneg axis.x, mul_self_nonneg axis.y, mul_self_nonneg axis.z]
    have h2 : axis.y = 0 := by nlinarith [mul_self_nonneg axis.x, mul_self_nonneg axis.y, mul_self_nonneg axis.z]
    have h3 : axis.z = 0 := by nlinarith [mul_self_nonneg axis.x, mul_self_nonneg axis.y, mul_self_nonneg axis.z]
    cases axis
    simp_all
  have hs : 0 < sqrt (dot axis axis) := Real.sqrt_pos.mpr hp
  have hk : (axis.x / sqrt (dot axis axis)) ^ 2 + (axis.y / sqrt (dot axis axis)) ^ 2 + (axis.z / sqrt (dot axis axis)) ^ 2 = 1 := by
    have e : sqrt (dot axis axis) ^ 2 = axis.x * axis.x + axis.y * axis.y + axis.z * axis.z := Real.sq_sqrt hp.le
    field_simp
    rw [e]
    ring
  have hc : cos theta = 2 * cos (theta / 2) ^ 2 - 1 := by rw [← Real.cos_two_mul]; congr 1; ring
  have hs2 : sin theta = 2 * sin (theta / 2) * cos (theta / 2) := by rw [← Real.sin_two_mul]; congr 1; ring
  have hsc : sin (theta / 2) ^ 2 = 1 - cos (theta / 2) ^ 2 := by rw [Real.sin_sq]
  unfold rotAxis rotateAbout len smul add cross
  simp only [dot_eq]
  have hdot : ∀ a b c : ℝ, dot (⟨a, b, c⟩ : V3 ℝ) x = a * x.x + b * x.y + c * x.z := fun _ _ _ => rfl
  simp only [hdot, hc, hs2]
  have e1 : ∀ a : ℝ, 1 / sqrt (dot axis axis) * a = a / sqrt (dot axis axis) := fun a => by ring
  simp only [e1]
  generalize axis.x / sqrt (dot axis axis) = k1 at hk
  generalize axis.y / sqrt (dot axis axis) = k2 at hk
  generalize axis.z / sqrt (dot axis axis) = k3 at hk
  generalize cos (theta / 2) = C at hsc
  generalize sin (theta / 2) = S at hsc
  have e3 : k3 ^ 2 = 1 - k1 ^ 2 - k2 ^ 2 := by linarith
  have e2 : k2 ^ 2 = 1 - k1 ^ 2 - k3 ^ 2 := by linarith
  have e0 : k1 ^ 2 = 1 - k2 ^ 2 - k3 ^ 2 := by linarith
  congr 1
  · linear_combination (2 * k1 ^ 2 * x.x + 2 * k1 * k2 * x.y + 2 * k1 * k3 * x.z - x.x) * hsc + (- S ^ 2 * x.x) * hk
  · linear_combination (2 * k1 * k2 * x.x + 2 * k2 ^ 2 * x.y + 2 * k2 * k3 * x.z - x.y) * hsc + (- S ^ 2 * x.y) * hk
  · linear_combination (2 * k1 * k3 * x.x + 2 * k2 * k3 * x.y + 2 * k3 ^ 2 * x.z - x.z) * hsc + (- S ^ 2 * x.z) * hk

private theorem len_sq (a : V3 ℝ) : len a ^ 2 = a.x * a.x + a.y * a.y + a.z * a.z :=
  Real.sq_sqrt (by
    show 0 ≤ a.x * a.x + a.y * a.y + a.z * a.z
    nlinarith [mul_self_nonneg a.x, mul_self_nonneg a.y, mul_self_nonneg a.z])

private theorem len_nonneg (a : V3 ℝ) : 0 ≤ len a := Real.sqrt_nonneg _

private theorem len_pos' (a : V3 ℝ) (h : a ≠ ⟨0, 0, 0⟩) : 0 < len a := by
  rcases lt_or_eq_of_le (len_nonneg a) with h1 | h1
  · exact h1
  · exfalso
    have e := len_sq a
    rw [← h1] at e
    apply h
    have h1 : a.x = 0 := by nlinarith [mul_self_nonneg a.x, mul_self_nonneg a.y, mul_self_nonneg a.z]
    have h2 : a.y = 0 := by nlinarith [mul_self_nonneg a.x, mul_self_nonneg a.y, mul_self_nonneg a.z]
    have h3 : a.z = 0 := by nlinarith [mul_self_nonneg a.x, mul_self_nonneg a.y, mul_self_nonneg a.z]
    cases a
    simp only at h1 h2 h3
    rw [h1, h2, h3]

private theorem unit_len (a : V3 ℝ) (h : a ≠ ⟨0, 0, 0⟩) : len (unit3 a) = 1 := by
  have hp := len_pos' a h
  have e : len (unit3 a) ^ 2 = 1 := by
    rw [len_sq]
    show a.x / len a * (a.x / len a) + a.y / len a * (a.y / len a) + a.z / len a * (a.z / len a) = 1
    have := len_sq a
    field_simp
    rw [this]
    ring
  have := len_nonneg (unit3 a)
  nlinarith [sq_nonneg (len (unit3 a) - 1)]

set_option maxHeartbeats 1000000 in
/-- C210: for a point whose direction from the apex makes an angle `phi` with the axis, the distance is the sine of the angle
between that direction and the cone. -/
theorem C210_distance (apex axis p : V3 ℝ) (theta phi : ℝ) (hu : len axis = 1) (hp : p ≠ apex) (h0 : 0 < phi) (h1 : phi < π)
    (hphi : dot (sub p apex) axis = cos phi * len (sub p apex)) : coneDistance p apex axis theta = |sin (phi - theta)| := by
  have hw0 : diff3 p apex ≠ ⟨0, 0, 0⟩ := by
    intro h
    apply hp
    have hx := congrArg V3.x h
    have hy := congrArg V3.y h
    have hz := congrArg V3.z h
    simp only [diff3] at hx hy hz
    cases p; cases apex
    simp only [V3.mk.injEq]
    exact ⟨by simpa using by linarith, by simpa using by linarith, by simpa using by linarith⟩
  have hpos := len_pos' _ hw0
  have hwl := unit_len _ hw0
  set w := unit3 (diff3 p apex) with hw
  have hwv : w.x * axis.x + w.y * axis.y + w.z * axis.z = cos phi := by
    have e : dot (diff3 p apex) axis = cos phi * len (diff3 p apex) := hphi
    have e' : (diff3 p apex).x * axis.x + (diff3 p apex).y * axis.y + (diff3 p apex).z * axis.z = cos phi * len (diff3 p apex) := e
    rw [hw]
    show (diff3 p apex).x / len (diff3 p apex) * axis.x + (diff3 p apex).y / len (diff3 p apex) * axis.y + (diff3 p apex).z / len (diff3 p apex) * axis.z = _
    field_simp
    linarith
  have hw1 := dot_one w hwl
  have hv1 := dot_one axis hu
  have hsin : 0 < sin phi := Real.sin_pos_of_pos_of_lt_pi h0 h1
  have hcs : sin phi ^ 2 = 1 - cos phi ^ 2 := by rw [Real.sin_sq]
  have hcl : len (cross3 w axis) = sin phi := by
    have e : len (cross3 w axis) ^ 2 = sin phi ^ 2 := by
      rw [len_sq, hcs, ← hwv]
      simp only [cross3]
      linear_combination (axis.x * axis.x + axis.y * axis.y + axis.z * axis.z) * hw1 + hv1
    exact (pow_left_inj₀ (len_nonneg _) hsin.le two_ne_zero).mp e
  have hcn : cross3 w axis ≠ ⟨0, 0, 0⟩ := by
    intro h
    rw [h] at hcl
    have : len ⟨0, 0, 0⟩ = 0 := by simp [len, dot]
    rw [this] at hcl
    linarith
  have hn1 : unit3 (cross3 w axis) ≠ ⟨0, 0, 0⟩ := by
    intro h
    have := unit_len _ hcn
    rw [h] at this
    simp [len, dot] at this
  have hn1l := unit_len _ hcn
  unfold coneDistance
  simp only
  have hne : norm3 (diff3 p apex) ≠ 0 := hpos.ne'
  rw [if_neg hne, ← hw]
  have hne2 : norm3 (cross3 w axis) ≠ 0 := by
    have : norm3 (cross3 w axis) = sin phi := hcl
    rw [this]
    exact hsin.ne'
  rw [if_neg hne2, C210_rotation _ _ _ hn1, hn1l]
  set n1 := unit3 (cross3 w axis) with hn1d
  have s1 : n1.x = (w.y * axis.z - w.z * axis.y) / sin phi := by
    rw [hn1d]; show (cross3 w axis).x / len (cross3 w axis) = _; rw [hcl]; rfl
  have s2 : n1.y = (w.z * axis.x - w.x * axis.z) / sin phi := by
    rw [hn1d]; show (cross3 w axis).y / len (cross3 w axis) = _; rw [hcl]; rfl
  have s3 : n1.z = (w.x * axis.y - w.y * axis.x) / sin phi := by
    rw [hn1d]; show (cross3 w axis).z / len (cross3 w axis) = _; rw [hcl]; rfl
  -- the generator next to the point
  have hu' : ∀ x : V3 ℝ, x = rotateAbout (smul (1 / 1) n1) (-theta) axis →
      x.x = cos theta * axis.x + sin theta * (w.x - cos phi * axis.x) / sin phi ∧
      x.y = cos theta * axis.y + sin theta * (w.y - cos phi * axis.y) / sin phi ∧
      x.z = cos theta * axis.z + sin theta * (w.z - cos phi * axis.z) / sin phi := by
    intro x hx
    subst hx
    have hd0 : n1.x * axis.x + n1.y * axis.y + n1.z * axis.z = 0 := by
      rw [s1, s2, s3]; field_simp; ring
    have hd : dot (smul (1 / 1) n1) axis = 0 := by
      show 1 / 1 * n1.x * axis.x + 1 / 1 * n1.y * axis.y + 1 / 1 * n1.z * axis.z = 0
      linarith
    simp only [rotateAbout, hd, mul_zero]
    simp only [add, smul, cross, Real.cos_neg, Real.sin_neg, div_one, one_mul, zero_mul, add_zero]
    rw [s1, s2, s3]
    have k := hv1
    refine ⟨?_, ?_, ?_⟩
    · field_simp
      rw [← hwv]
      linear_combination (sin theta * w.x) * hv1
    · field_simp
      rw [← hwv]
      linear_combination (sin theta * w.y) * hv1
    · field_simp
      rw [← hwv]
      linear_combination (sin theta * w.z) * hv1
  obtain ⟨u1, u2, u3⟩ := hu' _ rfl
  set u := rotateAbout (smul (1 / 1) n1) (-theta) axis
  have hun1 : len (cross3 u n1) = 1 := by
    have huu : u.x * u.x + u.y * u.y + u.z * u.z = 1 := by
      have hk : sin theta / sin phi * sin phi = sin theta := by field_simp
      have hcs' := Real.sin_sq_add_cos_sq theta
      rw [u1, u2, u3]
      simp only [mul_div_right_comm]
      generalize sin theta / sin phi = k at hk ⊢
      linear_combination (cos theta ^ 2 - 2 * cos theta * k * cos phi + k ^ 2 * cos phi ^ 2) * hv1 + k ^ 2 * hw1 + (2 * cos theta * k - 2 * k ^ 2 * cos phi) * hwv + hcs' + (k * sin phi + sin theta) * hk - k ^ 2 * hcs
    have hun : u.x * n1.x + u.y * n1.y + u.z * n1.z = 0 := by
      rw [u1, u2, u3, s1, s2, s3]
      field_simp
      ring
    have hnn := dot_one n1 hn1l
    have e : len (cross3 u n1) ^ 2 = 1 := by
      rw [len_sq]
      simp only [cross3]
      linear_combination (n1.x * n1.x + n1.y * n1.y + n1.z * n1.z) * huu + hnn - (u.x * n1.x + u.y * n1.y + u.z * n1.z) * hun
    have := len_nonneg (cross3 u n1)
    nlinarith [sq_nonneg (len (cross3 u n1) - 1)]
  rw [unit_of_len _ hun1, unit_of_len _ hun1]
  congr 1
  rw [Real.sin_sub]
  show (u.y * n1.z - u.z * n1.y) * w.x + (u.z * n1.x - u.x * n1.z) * w.y + (u.x * n1.y - u.y * n1.x) * w.z = _
  have e : (u.y * n1.z - u.z * n1.y) * w.x + (u.z * n1.x - u.x * n1.z) * w.y + (u.x * n1.y - u.y * n1.x) * w.z =
      ((w.x * w.x + w.y * w.y + w.z * w.z) * (u.x * axis.x + u.y * axis.y + u.z * axis.z) -
        (w.x * axis.x + w.y * axis.y + w.z * axis.z) * (u.x * w.x + u.y * w.y + u.z * w.z)) / sin phi := by
    rw [s1, s2, s3]
    field_simp
    ring
  have ev : u.x * axis.x + u.y * axis.y + u.z * axis.z = cos theta := by
    rw [u1, u2, u3]
    field_simp
    linear_combination (cos theta * sin phi - sin theta * cos phi) * hv1 + sin theta * hwv
  have ew : u.x * w.x + u.y * w.y + u.z * w.z = cos theta * cos phi + sin theta * sin phi := by
    rw [u1, u2, u3]
    field_simp
    linear_combination (cos theta * sin phi - sin theta * cos phi) * hwv + sin theta * hw1 - sin theta * hcs
  rw [e, ev, ew, hw1, hwv]
  field_simp
  linear_combination (-cos theta) * hcs

/-- C210: off the axis the distance is zero for the points of the cone and no others. -/
theorem C210_zero_partial (apex axis p : V3 ℝ) (theta : ℝ) (hu : len axis = 1) (hp : ∀ t : ℝ, p ≠ add apex (smul t axis))
    (h0 : 0 < theta) (h1 : theta < π / 2) : coneDistance p apex axis theta = 0 ↔ OnCone apex axis theta p := by
  have hpa : p ≠ apex := by
    have := hp 0
    simpa [add, smul] using this
  have hv1 := dot_one axis hu
  have hw0 : sub p apex ≠ ⟨0, 0, 0⟩ := by
    intro h
    apply hpa
    have hx := congrArg V3.x h
    have hy := congrArg V3.y h
    have hz := congrArg V3.z h
    simp only [sub] at hx hy hz
    cases p; cases apex
    simp only [V3.mk.injEq]
    exact ⟨by simpa using by linarith, by simpa using by linarith, by simpa using by linarith⟩
  have hpos := len_pos' _ hw0
  have hl2 := len_sq (sub p apex)
  -- strict Cauchy-Schwarz, as the point is not on the axis
  have hcs : dot (sub p apex) axis ^ 2 < len (sub p apex) ^ 2 := by
    by_contra hc
    push Not at hc
    rw [hl2] at hc
    set w := sub p apex with hw
    set t := dot w axis with ht
    have ht' : t = w.x * axis.x + w.y * axis.y + w.z * axis.z := rfl
    have hz : (w.x - t * axis.x) ^ 2 + (w.y - t * axis.y) ^ 2 + (w.z - t * axis.z) ^ 2 ≤ 0 := by
      have e : (w.x - t * axis.x) ^ 2 + (w.y - t * axis.y) ^ 2 + (w.z - t * axis.z) ^ 2 =
          w.x * w.x + w.y * w.y + w.z * w.z - t ^ 2 := by
        linear_combination t ^ 2 * hv1 + 2 * t * ht'
      linarith
    have e1 : w.x - t * axis.x = 0 := by
      nlinarith [sq_nonneg (w.x - t * axis.x), sq_nonneg (w.y - t * axis.y), sq_nonneg (w.z - t * axis.z)]
    have e2 : w.y - t * axis.y = 0 := by
      nlinarith [sq_nonneg (w.x - t * axis.x), sq_nonneg (w.y - t * axis.y), sq_nonneg (w.z - t * axis.z)]
    have e3 : w.z - t * axis.z = 0 := by
      nlinarith [sq_nonneg (w.x - t * axis.x), sq_nonneg (w.y - t * axis.y), sq_nonneg (w.z - t * axis.z)]
    apply hp t
    have f1 : w.x = p.x - apex.x := rfl
    have f2 : w.y = p.y - apex.y := rfl
    have f3 : w.z = p.z - apex.z := rfl
    have g : ∀ q : V3 ℝ, p.x = q.x → p.y = q.y → p.z = q.z → p = q := by
      intro q a b c; cases p; cases q; simp only at a b c; rw [a, b, c]
    apply g
    · show p.x = apex.x + t * axis.x
      linarith
    · show p.y = apex.y + t * axis.y
      linarith
    · show p.z = apex.z + t * axis.z
      linarith
  have habs : |dot (sub p apex) axis| < len (sub p apex) := abs_lt_of_sq_lt_sq hcs hpos.le
  rw [abs_lt] at habs
  have hb1 : -1 < dot (sub p apex) axis / len (sub p apex) := by rw [lt_div_iff₀ hpos]; linarith
  have hb2 : dot (sub p apex) axis / len (sub p apex) < 1 := by rw [div_lt_iff₀ hpos]; linarith
  set phi := Real.arccos (dot (sub p apex) axis / len (sub p apex)) with hphid
  have hcos : cos phi = dot (sub p apex) axis / len (sub p apex) := Real.cos_arccos hb1.le hb2.le
  have hph : dot (sub p apex) axis = cos phi * len (sub p apex) := by rw [hcos]; field_simp
  have hph0 : 0 < phi := Real.arccos_pos.mpr hb2
  have hphpi : phi < π := by
    rcases lt_or_eq_of_le (Real.arccos_le_pi (dot (sub p apex) axis / len (sub p apex))) with h | h
    · exact h
    · exfalso
      have : cos phi = -1 := by rw [hphid, h, Real.cos_pi]
      rw [hcos] at this
      linarith
  have hpi := Real.pi_pos
  rw [C210_distance apex axis p theta phi hu hpa hph0 hphpi hph, abs_eq_zero]
  unfold OnCone
  rw [hph]
  constructor
  · intro h
    have : phi - theta = 0 := by
      by_contra hne
      rcases lt_or_gt_of_ne hne with hl | hg
      · have := Real.sin_neg_of_neg_of_neg_pi_lt hl (by linarith)
        linarith
      · have := Real.sin_pos_of_pos_of_lt_pi hg (by linarith)
        linarith
    have : phi = theta := by linarith
    rw [this]
  · intro h
    have h2 : cos phi = cos theta := mul_right_cancel₀ hpos.ne' h
    have h3 : phi = theta := Real.injOn_cos ⟨hph0.le, hphpi.le⟩ ⟨h0.le, by linarith⟩ h2
    rw [h3, sub_self, Real.sin_zero]

/-- C210: on the axis it is the distance from the apex times the cosine of the half angle. -/
theorem C210_axis (apex axis : V3 ℝ) (theta t : ℝ) (hu : len axis = 1) :
    coneDistance (add apex (smul t axis)) apex axis theta = |t| * cos theta := by
  have hd : diff3 (add apex (smul t axis)) apex = smul t axis := by
    simp [diff3, add, smul]
  have hl : norm3 (smul t axis) = |t| := by
    have hv1 := dot_one axis hu
    have e : norm3 (smul t axis) = len (smul t axis) := rfl
    have e2 : len (smul t axis) ^ 2 = |t| ^ 2 := by
      rw [len_sq, sq_abs]
      show t * axis.x * (t * axis.x) + t * axis.y * (t * axis.y) + t * axis.z * (t * axis.z) = _
      linear_combination t ^ 2 * hv1
    rw [e]
    exact (pow_left_inj₀ (len_nonneg _) (abs_nonneg t) two_ne_zero).mp e2
  unfold coneDistance
  simp only [hd, hl]
  by_cases ht : t = 0
  · simp [ht]
  · rw [if_neg (abs_ne_zero.mpr ht)]
    have hc : norm3 (cross3 (unit3 (smul t axis)) axis) = 0 := by
      have : cross3 (unit3 (smul t axis)) axis = ⟨0, 0, 0⟩ := by
        simp only [cross3, unit3, smul, V3.mk.injEq]
        refine ⟨by ring, by ring, by ring⟩
      rw [this]
      simp [norm3, dot3]
    rw [if_pos hc]

/-- C210 is false as a distance: it does not grow with the distance from the apex. -/
theorem C210_distance_false : ¬ ConeDistance := by
  intro h
  have hu : len (⟨0, 0, 1⟩ : V3 ℝ) = 1 := by simp [len, dot]
  obtain ⟨-, q, hq, hl⟩ := h ⟨0, 0, 0⟩ ⟨0, 0, 1⟩ ⟨2, 0, 0⟩ (π / 4) hu (by positivity) (by linarith [Real.pi_pos])
  rw [C210_distance _ _ _ _ (π / 2) hu (by simp) (by positivity) (by linarith [Real.pi_pos])
    (by simp [dot, sub])] at hl
  have hs : |sin (π / 2 - π / 4)| ≤ 1 := Real.abs_sin_le_one _
  have h2 := len_sq (sub q ⟨2, 0, 0⟩)
  have hq' := congrArg (· ^ 2) hq
  simp only [mul_pow, len_sq] at hq'
  rw [Real.cos_pi_div_four] at hq'
  have h22 : (√2 / 2) ^ 2 = (1 : ℝ) / 2 := by
    rw [div_pow, Real.sq_sqrt (by norm_num)]; norm_num
  rw [h22] at hq'
  rw [hl] at h2
  simp only [dot, sub] at hq' h2
  have h3 : |sin (π / 2 - π / 4)| ^ 2 ≤ 1 := by
    have := abs_nonneg (sin (π / 2 - π / 4))
    nlinarith
  nlinarith [sq_nonneg (q.x - 1), sq_nonneg q.y]

private theorem v3_ext {p q : V3 ℝ} (a : p.x = q.x) (b : p.y = q.y) (c : p.z = q.z) : p = q := by
  cases p; cases q; simp only at a b c; rw [a, b, c]

/-- C210: unless the ray is parallel to the cone, the points returned are those in which its line meets the cone or the mirror
image of the cone. -/
theorem C210_ray_partial (apex axis o r : V3 ℝ) (theta : ℝ) (hr : r ≠ ⟨0, 0, 0⟩) (hn : dot r axis ^ 2 ≠ cos theta ^ 2 * dot r r) :
    hitPoints (coneRay apex axis theta o r) = lineOnCone apex axis theta o r := by
  have hpos := len_pos' r hr
  have hl2 := len_sq r
  have hd1 := dot_one _ (unit_len r hr)
  set d := unit3 r with hd
  have d1 : d.x = r.x / len r := rfl
  have d2 : d.y = r.y / len r := rfl
  have d3 : d.z = r.z / len r := rfl
  -- the line in terms of the unit vector
  have hline : lineOnCone apex axis theta o r = {q | ∃ t : ℝ, q = addScaled o t d ∧ OnDoubleCone apex axis theta q} := by
    ext q
    constructor
    · rintro ⟨⟨t, ht⟩, hq⟩
      refine ⟨t * len r, ?_, hq⟩
      rw [ht]
      apply v3_ext
      · show o.x + t * r.x = o.x + t * len r * d.x
        rw [d1]; field_simp
      · show o.y + t * r.y = o.y + t * len r * d.y
        rw [d2]; field_simp
      · show o.z + t * r.z = o.z + t * len r * d.z
        rw [d3]; field_simp
    · rintro ⟨t, ht, hq⟩
      refine ⟨⟨t / len r, ?_⟩, hq⟩
      rw [ht]
      apply v3_ext
      · show o.x + t * d.x = o.x + t / len r * r.x
        rw [d1]; ring
      · show o.y + t * d.y = o.y + t / len r * r.y
        rw [d2]; ring
      · show o.z + t * d.z = o.z + t / len r * r.z
        rw [d3]; ring
  -- the quadratic
  set a := dot3 d axis ^ 2 - cos theta * cos theta with ha
  set b := 2 * (dot3 d axis * dot3 (diff3 o apex) axis - dot3 d (diff3 o apex) * (cos theta * cos theta)) with hb
  set c := dot3 (diff3 o apex) axis ^ 2 - dot3 (diff3 o apex) (diff3 o apex) * (cos theta * cos theta) with hc
  have hquad : ∀ t, OnDoubleCone apex axis theta (addScaled o t d) ↔ a * t ^ 2 + b * t + c = 0 := by
    intro t
    unfold OnDoubleCone
    rw [ha, hb, hc]
    simp only [dot, sub, addScaled, dot3, diff3]
    constructor
    · intro h
      linear_combination h + cos theta ^ 2 * t ^ 2 * hd1
    · intro h
      linear_combination h - cos theta ^ 2 * t ^ 2 * hd1
  have ha0 : a ≠ 0 := by
    intro h
    apply hn
    have e : dot3 d axis * len r = dot r axis := by
      show (d.x * axis.x + d.y * axis.y + d.z * axis.z) * len r = r.x * axis.x + r.y * axis.y + r.z * axis.z
      rw [d1, d2, d3]; field_simp
    have e2 : dot r r = len r ^ 2 := hl2.symm
    rw [e2, ← e]
    rw [ha] at h
    linear_combination len r ^ 2 * h
  have hinj : ∀ t t', addScaled o t d = addScaled o t' d → t = t' := by
    intro t t' h
    have hx := congrArg V3.x h
    have hy := congrArg V3.y h
    have hz := congrArg V3.z h
    simp only [addScaled] at hx hy hz
    linear_combination (-(t - t')) * hd1 + d.x * hx + d.y * hy + d.z * hz
  rw [hline]
  unfold coneRay
  simp only [← hd, ← ha, ← hb, ← hc]
  have hsq : ∀ t, a * t ^ 2 + b * t + c = 0 ↔ (2 * a * t + b) ^ 2 = b ^ 2 - 4 * a * c := by
    intro t
    constructor
    · intro h
      linear_combination 4 * a * h
    · intro h
      have : 4 * a * (a * t ^ 2 + b * t + c) = 0 := by linear_combination h
      rcases mul_eq_zero.mp this with h' | h'
      · exact absurd h' (mul_ne_zero four_ne_zero ha0)
      · exact h'
  by_cases h1 : b ^ 2 - 4 * a * c < 0
  · rw [if_pos h1]
    ext q
    simp only [hitPoints, Set.mem_empty_iff_false, Set.mem_ofPred_eq, false_iff]
    rintro ⟨t, ht, hq⟩
    rw [ht, hquad, hsq] at hq
    nlinarith [sq_nonneg (2 * a * t + b)]
  · rw [if_neg h1, if_neg ha0]
    push Not at h1
    by_cases h2 : b ^ 2 - 4 * a * c = 0
    · rw [if_pos h2]
      ext q
      simp only [hitPoints, Set.mem_singleton_iff, Set.mem_ofPred_eq]
      constructor
      · intro h
        refine ⟨_, h, ?_⟩
        rw [h, hquad, hsq, h2]
        field_simp
        ring
      · rintro ⟨t, ht, hq⟩
        rw [ht, hquad, hsq, h2] at hq
        rw [ht]
        congr 1
        have : 2 * a * t + b = 0 := pow_eq_zero_iff two_ne_zero |>.mp hq
        field_simp
        linarith
    · rw [if_neg h2]
      have hs := Real.sq_sqrt h1
      generalize √(b ^ 2 - 4 * a * c) = e at hs ⊢
      ext q
      simp only [hitPoints, Set.mem_insert_iff, Set.mem_singleton_iff, Set.mem_ofPred_eq]
      constructor
      · rintro (h | h)
        · refine ⟨_, h, ?_⟩
          rw [h, hquad, hsq, ← hs]
          field_simp
          ring
        · refine ⟨_, h, ?_⟩
          rw [h, hquad, hsq, ← hs]
          field_simp
          ring
      · rintro ⟨t, ht, hq⟩
        rw [ht, hquad, hsq, ← hs] at hq
        rcases sq_eq_sq_iff_eq_or_eq_neg.mp hq with h | h
        · right
          rw [ht]
          congr 1
          field_simp
          linarith
        · left
          rw [ht]
          congr 1
          field_simp
          linarith

/-- C210: a ray parallel to the cone gives no finite point. -/
theorem C210_parallel (apex axis o r : V3 ℝ) (theta : ℝ) (hr : r ≠ ⟨0, 0, 0⟩) (hn : dot r axis ^ 2 = cos theta ^ 2 * dot r r) :
    coneRay apex axis theta o r = .notFinite := by
  have hpos := len_pos' r hr
  have hl2 := len_sq r
  have d1 : (unit3 r).x = r.x / len r := rfl
  have d2 : (unit3 r).y = r.y / len r := rfl
  have d3 : (unit3 r).z = r.z / len r := rfl
  have ha : dot3 (unit3 r) axis ^ 2 - cos theta * cos theta = 0 := by
    have e : dot3 (unit3 r) axis * len r = dot r axis := by
      show ((unit3 r).x * axis.x + (unit3 r).y * axis.y + (unit3 r).z * axis.z) * len r = r.x * axis.x + r.y * axis.y + r.z * axis.z
      rw [d1, d2, d3]; field_simp
    have e2 : dot r r = len r ^ 2 := hl2.symm
    rw [e2, ← e] at hn
    have : len r ^ 2 * (dot3 (unit3 r) axis ^ 2 - cos theta * cos theta) = 0 := by linear_combination hn
    rcases mul_eq_zero.mp this with h | h
    · exact absurd h (pow_ne_zero 2 hpos.ne')
    · exact h
  unfold coneRay
  simp only [ha, mul_zero, zero_mul, sub_zero]
  rw [if_neg (not_lt.mpr (sq_nonneg _)), if_true]

/-- C210 is false of rays parallel to the cone: one that meets it in one point. -/
theorem C210_ray_false : ¬ RayHits := by
  intro h
  have hc : cos (π / 4) ^ 2 = 1 / 2 := by
    rw [Real.cos_pi_div_four, div_pow, Real.sq_sqrt (by norm_num)]; norm_num
  have hset : lineOnCone ⟨0, 0, 0⟩ ⟨0, 0, 1⟩ (π / 4) ⟨1, 0, 0⟩ ⟨1, 0, 1⟩ = {⟨1 / 2, 0, -1 / 2⟩} := by
    ext q
    simp only [lineOnCone, Set.mem_ofPred_eq, Set.mem_singleton_iff]
    constructor
    · rintro ⟨⟨t, ht⟩, hq⟩
      rw [ht] at hq ⊢
      unfold OnDoubleCone at hq
      rw [hc] at hq
      simp only [dot, sub, add, smul] at hq
      have : t = -1 / 2 := by nlinarith
      rw [this]
      simp only [add, smul, V3.mk.injEq]
      norm_num
    · intro h
      rw [h]
      refine ⟨⟨-1 / 2, ?_⟩, ?_⟩
      · simp only [add, smul, V3.mk.injEq]
        norm_num
      · unfold OnDoubleCone
        rw [hc]
        simp only [dot, sub]
        norm_num
  have h2 := h ⟨0, 0, 0⟩ ⟨0, 0, 1⟩ ⟨1, 0, 0⟩ ⟨1, 0, 1⟩ (π / 4) (by simp [len, dot]) (by simp) (by rw [hset]; exact Set.finite_singleton _)
  rw [C210_parallel _ _ _ _ _ (by simp) (by rw [hc]; simp only [dot]; norm_num), hset] at h2
  simp only [hitPoints] at h2
  exact (Set.singleton_ne_empty _) h2.symm

/-- C210: the axis made from coefficients has length 1, is parallel to them and never points to negative x. -/
theorem C210_axis_unit (v : V3 ℝ) (hv : v ≠ ⟨0, 0, 0⟩) :
    len (coneAxis v) = 1 ∧ 0 ≤ (coneAxis v).x ∧ ∃ t : ℝ, t ≠ 0 ∧ v = smul t (coneAxis v) := by
  have hpos := len_pos' v hv
  have hl := unit_len v hv
  have d1 : (unit3 v).x = v.x / len v := rfl
  have d2 : (unit3 v).y = v.y / len v := rfl
  have d3 : (unit3 v).z = v.z / len v := rfl
  unfold coneAxis
  simp only
  by_cases h : (unit3 v).x < 0
  · rw [if_pos h]
    refine ⟨?_, by simpa using h.le, -len v, by linarith, ?_⟩
    · refine Eq.trans ?_ hl
      simp [len, dot]
    · apply v3_ext
      · show v.x = -len v * ((unit3 v).x * -1)
        rw [d1]; field_simp
      · show v.y = -len v * ((unit3 v).y * -1)
        rw [d2]; field_simp
      · show v.z = -len v * ((unit3 v).z * -1)
        rw [d3]; field_simp
  · rw [if_neg h]
    refine ⟨hl, not_lt.mp h, len v, hpos.ne', ?_⟩
    apply v3_ext
    · show v.x = len v * (unit3 v).x
      rw [d1]; field_simp
    · show v.y = len v * (unit3 v).y
      rw [d2]; field_simp
    · show v.z = len v * (unit3 v).z
      rw [d3]; field_simp

/-- C210: drawing a plane into an image succeeds only for an image without pixels. -/
theorem C210_plane_partial (p : PlaneObj) (ray : ℕ → ℕ → V3 ℝ) (o : V3 ℝ) (width height : ℕ) :
    (∃ l, planeImage p ray o width height = .ok l) ↔ width = 0 ∨ height = 0 := by
  unfold planeImage
  by_cases h : width = 0 ∨ height = 0
  · simp [h]
  · rw [if_neg h]
    cases p.rayIntersection o (ray 0 0) <;> simp [h]

/-- C210 is false of drawing planes. -/
theorem C210_plane_false : ¬ PlaneDrawn := by
  intro h
  have := (C210_plane_partial ⟨⟨0, 0, 1⟩, 1, ⟨0, 0, 1⟩⟩ (fun _ _ => ⟨0, 0, 1⟩) ⟨0, 0, 0⟩ 1 1).mp (h _ _ _ _ _)
  simp at this

/-- The hypotheses are met: a point beside the axis, and a ray that is not parallel to the cone. -/
example : coneDistance ⟨1, 0, 0⟩ ⟨0, 0, 0⟩ ⟨0, 0, 1⟩ (π / 4) = |sin (π / 2 - π / 4)| :=
  C210_distance _ _ _ _ _ (by simp [len, dot]) (by simp) (by positivity) (by linarith [Real.pi_pos]) (by simp [dot, sub])

example : hitPoints (coneRay ⟨0, 0, 0⟩ ⟨0, 0, 1⟩ (π / 4) ⟨0, 0, 1⟩ ⟨1, 0, 0⟩) =
    lineOnCone ⟨0, 0, 0⟩ ⟨0, 0, 1⟩ (π / 4) ⟨0, 0, 1⟩ ⟨1, 0, 0⟩ :=
  C210_ray_partial _ _ _ _ _ (by simp) (by
    rw [Real.cos_pi_div_four, div_pow, Real.sq_sqrt (by norm_num)]
    simp only [dot]; norm_num)

example : (coneDistance ⟨1, 0, 1⟩ ⟨0, 0, 0⟩ ⟨0, 0, 1⟩ (π / 4) = 0 ↔ OnCone ⟨0, 0, 0⟩ ⟨0, 0, 1⟩ (π / 4) ⟨1, 0, 1⟩) :=
  C210_zero_partial _ _ _ _ (by simp [len, dot]) (by simp [add, smul]) (by positivity) (by linarith [Real.pi_pos])

end Oplab.Props
