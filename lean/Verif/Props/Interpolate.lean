import Mathlib.Tactic.Ring
import Mathlib.Tactic.Linarith
import Mathlib.Tactic.NormNum
import Mathlib.Tactic.FieldSimp
import Mathlib.Tactic.Push
import Mathlib.Algebra.Order.Field.Rat
import Verif.Model.Interpolate
import Verif.Spec.Lines

/-! Properties C03, C04, C05 (and the small interpolation helpers). -/

namespace Oplab.Props
open Oplab Oplab.Spec

set_option linter.unusedSectionVars false

variable {K : Type} [Field K] [LinearOrder K] [IsStrictOrderedRing K]

/-! ## C03 scalar interpolation -/

/-- C03: the returned value lies on the line through the two bracketing points. -/
theorem C03_on_line (xq xl xu yl yu : K) (h : xl ≠ xu) :
    OnLine xl yl xu yu xq (interpolate xq xl xu yl yu) := by
  have hne : xu - xl ≠ 0 := sub_ne_zero.mpr (Ne.symm h)
  simp only [OnLine, interpolate, if_neg (Ne.symm h)]
  field_simp
  ring

/-- C03: equal abscissae return the lower value (no division by zero). -/
theorem C03_degenerate (xq x yl yu : K) : interpolate xq x x yl yu = yl := by
  simp [interpolate]

/-- C03: exact at both end points. -/
theorem C03_endpoints (xl xu yl yu : K) (h : xl ≠ xu) :
    interpolate xl xl xu yl yu = yl ∧ interpolate xu xl xu yl yu = yu := by
  have hne : xu - xl ≠ 0 := sub_ne_zero.mpr (Ne.symm h)
  constructor
  · simp [interpolate]
  · simp only [interpolate, if_neg (Ne.symm h)]; field_simp; ring

/-- C03: a query between the abscissae gives a value between the ordinates. -/
theorem C03_between (xq xl xu yl yu : K) (hl : xl ≤ xq) (hu : xq ≤ xu) :
    min yl yu ≤ interpolate xq xl xu yl yu ∧ interpolate xq xl xu yl yu ≤ max yl yu := by
  by_cases h : xu = xl
  · subst h; simp [interpolate]
  · have hlt : xl < xu := lt_of_le_of_ne (le_trans hl hu) (Ne.symm h)
    have hpos : 0 < xu - xl := sub_pos.mpr hlt
    have hx0 : 0 ≤ (xq - xl) / (xu - xl) := div_nonneg (sub_nonneg.mpr hl) hpos.le
    have hx1 : (xq - xl) / (xu - xl) ≤ 1 := by rw [div_le_one hpos]; linarith
    have e : interpolate xq xl xu yl yu = yl + (xq - xl) / (xu - xl) * (yu - yl) := by
      simp only [interpolate, if_neg h]; field_simp; ring
    rw [e]
    set w := (xq - xl) / (xu - xl)
    rcases le_total yl yu with hy | hy
    · rw [min_eq_left hy, max_eq_right hy]
      constructor <;> nlinarith [mul_nonneg hx0 (sub_nonneg.mpr hy), mul_nonneg (sub_nonneg.mpr hx1) (sub_nonneg.mpr hy)]
    · rw [min_eq_right hy, max_eq_left hy]
      constructor <;> nlinarith [mul_nonneg hx0 (sub_nonneg.mpr hy), mul_nonneg (sub_nonneg.mpr hx1) (sub_nonneg.mpr hy)]

/-- C03: monotone in the query for non-decreasing end values. -/
theorem C03_monotone (q q' xl xu yl yu : K) (hx : xl < xu) (hy : yl ≤ yu) (hq : q ≤ q') :
    interpolate q xl xu yl yu ≤ interpolate q' xl xu yl yu := by
  have h := mul_le_mul_of_nonneg_left (sub_le_sub_right hq xl)
    (div_nonneg (sub_nonneg.mpr hy) (sub_pos.mpr hx).le)
  simp only [interpolate, if_neg hx.ne']
  linarith

/-- C03: affine functions are reproduced exactly, inside and outside the bracket. -/
theorem C03_affine_exact (a b q xl xu : K) (h : xl ≠ xu) :
    interpolate q xl xu (a + b * xl) (a + b * xu) = a + b * q := by
  have hne : xu - xl ≠ 0 := sub_ne_zero.mpr (Ne.symm h)
  simp only [interpolate, if_neg (Ne.symm h)]; field_simp; ring

example : interpolate (K := ℚ) 25 20 30 (-4) 6 = 1 := by norm_num [interpolate]

/-! ### `interpolate_altitude` -/

private theorem altSteps_le (q : K) : ∀ l : List (AltSample K), altSteps q l ≤ l.length
  | [] => by simp [altSteps]
  | d :: ds => by
    simp only [altSteps]; split
    · simp [altSteps_le q ds]
    · simp

private theorem altSteps_before (q : K) : ∀ (l : List (AltSample K)) (k : Nat) (d : AltSample K),
    k < altSteps q l → l[k]? = some d → d.t < q
  | [], k, d, h, _ => by simp [altSteps] at h
  | e :: es, k, d, h, hd => by
    simp only [altSteps] at h
    split at h
    · rename_i hlt
      cases k with
      | zero => simp at hd; subst hd; exact hlt
      | succ k => exact altSteps_before q es k d (by omega) (by simpa using hd)
    · omega

private theorem altSteps_at (q : K) : ∀ (l : List (AltSample K)) (d : AltSample K),
    l[altSteps q l]? = some d → q ≤ d.t
  | [], d, h => by simp at h
  | e :: es, d, h => by
    by_cases hlt : e.t < q
    · simp only [altSteps, if_pos hlt] at h
      exact altSteps_at q es d (by simpa using h)
    · simp only [altSteps, if_neg hlt] at h
      simp at h; subst h; exact not_lt.mp hlt

/-- C03 (altitude lookup): whenever an altitude is returned, it is interpolated between two consecutive
entries, the second at or after the query, and every entry strictly between the first entry
of the list and the second bracket is before the query. -/
theorem C03_altitude_bracket (q : K) (data : List (AltSample K)) (r : K)
    (h : interpolateAltitude q data = .ok r) :
    ∃ i a b, data[i]? = some a ∧ data[i + 1]? = some b ∧ q ≤ b.t ∧ (1 ≤ i → a.t < q)
      ∧ r = interpolate q a.t b.t a.altitude b.altitude := by
  simp only [interpolateAltitude] at h
  split at h
  · rename_i a b ha hb
    refine ⟨altSteps q (data.drop 1), a, b, by simpa using ha, by rw [Nat.add_comm]; exact hb, ?_, ?_, ?_⟩
    · apply altSteps_at q (data.drop 1); rw [List.getElem?_drop]; exact hb
    · intro hi
      apply altSteps_before q (data.drop 1) (altSteps q (data.drop 1) - 1) a (by omega)
      rw [List.getElem?_drop]
      rw [← ha]; congr 1; omega
    · simpa using h.symm
  · simp at h

/-- C03 (altitude lookup): a query after the last entry of a list of at least one entry raises `IndexError`
rather than extrapolating. -/
theorem C03_altitude_past_end (q : K) (data : List (AltSample K)) (hq : ∀ d ∈ data, d.t < q) :
    interpolateAltitude q data = .error .indexError := by
  cases hres : interpolateAltitude q data with
  | error e =>
    simp only [interpolateAltitude] at hres; split at hres <;> simp_all
  | ok r =>
    obtain ⟨i, a, b, _, hb, hle, _⟩ := C03_altitude_bracket q data r hres
    have := hq b (List.mem_of_getElem? hb)
    exact absurd hle (not_le.mpr this)

example : interpolateAltitude (K := ℚ) 15 [⟨0, 5⟩, ⟨10, 6⟩, ⟨20, 8⟩] = .ok 7 := by
  norm_num [interpolateAltitude, altSteps, interpolate]

/-! ## C04 heading interpolation -/

private theorem interp_eq (q t1 t2 a b : K) (h : t1 < t2) :
    interpolate q t1 t2 a b = a + (q - t1) / (t2 - t1) * (b - a) := by
  have hne : t2 - t1 ≠ 0 := (sub_pos.mpr h).ne'
  simp only [interpolate, if_neg h.ne']; field_simp; ring

private theorem hd_of_abs_le (a b : K) (h : |a - b| ≤ 180) : headingDist a b = |a - b| := by
  simp only [headingDist]; apply min_eq_left; linarith

private theorem hd_of_abs_ge (a b : K) (h : 180 ≤ |a - b|) : headingDist a b = 360 - |a - b| := by
  simp only [headingDist]; apply min_eq_right; linarith

/-- Linear core of C04: `u` is the arc already travelled, `d - u` the arc left. -/
private theorem yaw_core (y1 y2 w : K) (ha : 0 ≤ y1 ∧ y1 ≤ 360) (hb : 0 ≤ y2 ∧ y2 ≤ 360)
    (hw0 : 0 ≤ w) (hw1 : w ≤ 1) :
    let r := if y2 > y1 then y1 + w * (y2 - 360 - y1) else y1 - 360 + w * (y2 - (y1 - 360))
    let y := if |y2 - y1| > 180 then (if r < 0 then r + 360 else if r > 360 then r - 360 else r)
      else y1 + w * (y2 - y1)
    (0 ≤ y ∧ y ≤ 360) ∧ headingDist y1 y = w * headingDist y1 y2
        ∧ headingDist y y2 = headingDist y1 y2 - w * headingDist y1 y2 := by
  intro r y
  by_cases hbig : |y2 - y1| > 180
  · have hy : y = if r < 0 then r + 360 else if r > 360 then r - 360 else r := if_pos hbig
    by_cases hgt : y2 > y1
    · have hr : r = y1 + w * (y2 - 360 - y1) := if_pos hgt
      rw [abs_of_pos (sub_pos.mpr hgt)] at hbig
      have hD : headingDist y1 y2 = 360 - (y2 - y1) := by
        rw [hd_of_abs_ge]
        · rw [abs_of_neg (by linarith)]; ring
        · rw [abs_of_neg (by linarith)]; linarith
      have hd : 0 ≤ 360 - (y2 - y1) := by linarith [ha.1, hb.2]
      have e : r = y1 - w * (360 - (y2 - y1)) := by rw [hr]; ring
      have h0 : 0 ≤ w * (360 - (y2 - y1)) := mul_nonneg hw0 hd
      have h1 : w * (360 - (y2 - y1)) ≤ 360 - (y2 - y1) := by nlinarith
      rw [hD]
      generalize w * (360 - (y2 - y1)) = u at *
      clear hr
      by_cases hneg : r < 0
      · rw [if_pos hneg, e] at hy
        rw [e] at hneg
        rw [hy]
        refine ⟨⟨by linarith [ha.1, hb.1], by linarith⟩, ?_, ?_⟩
        · rw [hd_of_abs_ge]
          · rw [abs_of_nonpos (by linarith)]; ring
          · rw [abs_of_nonpos (by linarith)]; linarith
        · rw [hd_of_abs_le]
          · rw [abs_of_nonneg (by linarith)]; ring
          · rw [abs_of_nonneg (by linarith)]; linarith
      · rw [if_neg hneg, if_neg (by rw [e]; linarith [ha.2]), e] at hy
        rw [e] at hneg
        push Not at hneg
        rw [hy]
        refine ⟨⟨hneg, by linarith [ha.2]⟩, ?_, ?_⟩
        · rw [hd_of_abs_le]
          · rw [abs_of_nonneg (by linarith)]; ring
          · rw [abs_of_nonneg (by linarith)]; linarith
        · rw [hd_of_abs_ge]
          · rw [abs_of_nonpos (by linarith)]; ring
          · rw [abs_of_nonpos (by linarith)]; linarith
    · have hr : r = y1 - 360 + w * (y2 - (y1 - 360)) := if_neg hgt
      push Not at hgt
      rw [abs_of_nonpos (by linarith)] at hbig
      have hD : headingDist y1 y2 = 360 - (y1 - y2) := by
        rw [hd_of_abs_ge]
        · rw [abs_of_pos (by linarith)]
        · rw [abs_of_pos (by linarith)]; linarith
      have hd : 0 ≤ 360 - (y1 - y2) := by linarith [ha.2, hb.1]
      have e : r = y1 - 360 + w * (360 - (y1 - y2)) := by rw [hr]; ring
      have h0 : 0 ≤ w * (360 - (y1 - y2)) := mul_nonneg hw0 hd
      have h1 : w * (360 - (y1 - y2)) ≤ 360 - (y1 - y2) := by nlinarith
      rw [hD]
      generalize w * (360 - (y1 - y2)) = u at *
      clear hr
      by_cases hneg : r < 0
      · rw [if_pos hneg, e] at hy
        rw [e] at hneg
        rw [hy]
        refine ⟨⟨by linarith [ha.1, hb.1], by linarith⟩, ?_, ?_⟩
        · rw [hd_of_abs_le]
          · rw [abs_of_nonpos (by linarith)]; ring
          · rw [abs_of_nonpos (by linarith)]; linarith
        · rw [hd_of_abs_ge]
          · rw [abs_of_nonneg (by linarith)]; ring
          · rw [abs_of_nonneg (by linarith)]; linarith
      · rw [if_neg hneg, if_neg (by rw [e]; linarith [hb.2]), e] at hy
        rw [e] at hneg
        push Not at hneg
        rw [hy]
        refine ⟨⟨hneg, by linarith [hb.2]⟩, ?_, ?_⟩
        · rw [hd_of_abs_ge]
          · rw [abs_of_nonneg (by linarith)]; ring
          · rw [abs_of_nonneg (by linarith)]; linarith
        · rw [hd_of_abs_le]
          · rw [abs_of_nonpos (by linarith)]; ring
          · rw [abs_of_nonpos (by linarith)]; linarith
  · have hy : y = y1 + w * (y2 - y1) := if_neg hbig
    push Not at hbig
    have hD : headingDist y1 y2 = |y2 - y1| := by
      rw [hd_of_abs_le _ _ (by rw [abs_sub_comm]; exact hbig), abs_sub_comm]
    have h1 : |y1 - y| = w * |y2 - y1| := by
      rw [hy, show y1 - (y1 + w * (y2 - y1)) = -(w * (y2 - y1)) by ring, abs_neg, abs_mul,
        abs_of_nonneg hw0]
    have h2 : |y - y2| = |y2 - y1| - w * |y2 - y1| := by
      rw [hy, show y1 + w * (y2 - y1) - y2 = -((1 - w) * (y2 - y1)) by ring, abs_neg, abs_mul,
        abs_of_nonneg (sub_nonneg.mpr hw1)]
      ring
    have habs := abs_nonneg (y2 - y1)
    have h3 : 0 ≤ w * |y2 - y1| := mul_nonneg hw0 habs
    have h4 : w * |y2 - y1| ≤ |y2 - y1| := by nlinarith
    refine ⟨?_, ?_, ?_⟩
    · rw [hy]
      constructor
      · nlinarith [mul_nonneg hw0 hb.1, mul_nonneg (sub_nonneg.mpr hw1) ha.1]
      · nlinarith [mul_nonneg hw0 (sub_nonneg.mpr hb.2), mul_nonneg (sub_nonneg.mpr hw1) (sub_nonneg.mpr ha.2)]
    · rw [hD, hd_of_abs_le _ _ (by rw [h1]; linarith), h1]
    · rw [hD, hd_of_abs_le _ _ (by rw [h2]; linarith), h2]

/-- The heading rule itself (used for C04 and C06). -/
theorem C04_heading_rule (q t1 t2 y1 y2 : K) (ht : t1 < t2) (hq1 : t1 ≤ q) (hq2 : q ≤ t2)
    (ha : 0 ≤ y1 ∧ y1 ≤ 360) (hb : 0 ≤ y2 ∧ y2 ≤ 360) :
    let y := interpolateYaw q t1 t2 y1 y2
    (0 ≤ y ∧ y ≤ 360)
    ∧ headingDist y1 y * (t2 - t1) = headingDist y1 y2 * (q - t1)
    ∧ headingDist y y2 * (t2 - t1) = headingDist y1 y2 * (t2 - q) := by
  have hpos : 0 < t2 - t1 := sub_pos.mpr ht
  have hw0 : 0 ≤ (q - t1) / (t2 - t1) := div_nonneg (sub_nonneg.mpr hq1) hpos.le
  have hw1 : (q - t1) / (t2 - t1) ≤ 1 := by rw [div_le_one hpos]; linarith
  have hwq : (q - t1) / (t2 - t1) * (t2 - t1) = q - t1 := by field_simp
  have := yaw_core y1 y2 _ ha hb hw0 hw1
  simp only [interpolateYaw, interp_eq _ _ _ _ _ ht]
  obtain ⟨h1, h2, h3⟩ := this
  refine ⟨h1, ?_, ?_⟩
  · rw [h2]; linear_combination (headingDist y1 y2) * hwq
  · rw [h3]; linear_combination (-headingDist y1 y2) * hwq

/-- C04: for headings in [0, 360] and a query between the two times, the interpolated heading is again
in [0, 360], it moves away from the first heading at constant rate along the
shorter arc, and it reaches the second heading the same way. -/
theorem C04_heading_short_way (q : K) (a b : DvlState K)
    (ht : a.t < b.t) (hq1 : a.t ≤ q) (hq2 : q ≤ b.t)
    (ha : 0 ≤ a.yaw ∧ a.yaw ≤ 360) (hb : 0 ≤ b.yaw ∧ b.yaw ≤ 360) :
    let y := (interpolateDvl q a b).yaw
    (0 ≤ y ∧ y ≤ 360)
    ∧ headingDist a.yaw y * (b.t - a.t) = headingDist a.yaw b.yaw * (q - a.t)
    ∧ headingDist y b.yaw * (b.t - a.t) = headingDist a.yaw b.yaw * (b.t - q) :=
  C04_heading_rule q a.t b.t a.yaw b.yaw ht hq1 hq2 ha hb

/-- C04: every other field of the interpolated state lies on the line between the two states, and it carries
the query time. -/
theorem C04_other_fields (q : K) (a b : DvlState K) (ht : a.t ≠ b.t) :
    let s := interpolateDvl q a b
    s.t = q ∧ OnLine a.t a.vx b.t b.vx q s.vx ∧ OnLine a.t a.vy b.t b.vy q s.vy
      ∧ OnLine a.t a.vz b.t b.vz q s.vz ∧ OnLine a.t a.roll b.t b.roll q s.roll
      ∧ OnLine a.t a.pitch b.t b.pitch q s.pitch :=
  ⟨rfl, C03_on_line _ _ _ _ _ ht, C03_on_line _ _ _ _ _ ht, C03_on_line _ _ _ _ _ ht,
    C03_on_line _ _ _ _ _ ht, C03_on_line _ _ _ _ _ ht⟩

/-- Crossing north: from 350 to 10 degrees, a quarter of the way is 355. -/
example : (interpolateDvl (K := ℚ) 1 ⟨0, 0, 0, 0, 0, 0, 350⟩ ⟨4, 0, 0, 0, 0, 0, 10⟩).yaw = 355 := by
  norm_num [interpolateDvl, interpolateYaw, interpolate]

/-! ### `interpolate_usbl` -/

/-- C03: every field of the interpolated USBL point lies on the line between the two fixes. -/
theorem C03_usbl_fields (q : K) (a b : UsblPt K) (ht : a.t ≠ b.t) :
    let s := interpolateUsbl q a b
    s.t = q ∧ OnLine a.t a.northings b.t b.northings q s.northings
      ∧ OnLine a.t a.eastings b.t b.eastings q s.eastings
      ∧ OnLine a.t a.northingsStd b.t b.northingsStd q s.northingsStd
      ∧ OnLine a.t a.eastingsStd b.t b.eastingsStd q s.eastingsStd
      ∧ OnLine a.t a.depth b.t b.depth q s.depth :=
  ⟨rfl, C03_on_line _ _ _ _ _ ht, C03_on_line _ _ _ _ _ ht, C03_on_line _ _ _ _ _ ht,
    C03_on_line _ _ _ _ _ ht, C03_on_line _ _ _ _ _ ht⟩

/-- C03: an interpolated covariance entry lies on the line between the two; equal times are an error. -/
theorem C03_covariance (t t0 t1 c0 c1 : K) :
    (t0 = t1 → interpolateCovariance t t0 t1 c0 c1 = .error .zeroDivision) ∧
    (t0 ≠ t1 → ∃ c, interpolateCovariance t t0 t1 c0 c1 = .ok c ∧ OnLine t0 c0 t1 c1 t c) := by
  constructor
  · rintro rfl; simp [interpolateCovariance]
  · intro h
    have hne : t1 - t0 ≠ 0 := sub_ne_zero.mpr (Ne.symm h)
    refine ⟨(1 - (t - t0) / (t1 - t0)) * c0 + (t - t0) / (t1 - t0) * c1,
      by simp only [interpolateCovariance, if_neg hne], ?_⟩
    simp only [OnLine]; field_simp; ring

/-! ## C05 `interpolate_camera` -/

private theorem camIndex_spec (q : K) : ∀ (l : List (CamPose K)) (i : Nat), l ≠ [] →
    ∃ k, camIndex q i l = i + k ∧ k < l.length ∧ (∀ m c, m < k → l[m]? = some c → c.t < q)
      ∧ (k + 1 < l.length → ∀ c, l[k]? = some c → q ≤ c.t)
  | [], _, h => absurd rfl h
  | [c], i, _ => ⟨0, by simp [camIndex], by simp, by intro m c h; omega, by simp⟩
  | c :: d :: cs, i, _ => by
    by_cases h : q ≤ c.t
    · refine ⟨0, by simp [camIndex, h], by simp, by intro m c h; omega, ?_⟩
      intro _ c' hc'; simp at hc'; subst hc'; exact h
    · obtain ⟨k, hk, hlt, hb, ha⟩ := camIndex_spec q (d :: cs) (i + 1) (by simp)
      refine ⟨k + 1, ?_, by simpa using hlt, ?_, ?_⟩
      · simp only [camIndex, if_neg h]; rw [hk]; omega
      · intro m c' hm hc'
        cases m with
        | zero => simp at hc'; subst hc'; exact not_le.mp h
        | succ m => exact hb m c' (by omega) (by simpa using hc')
      · intro hl c' hc'
        exact ha (by simpa using hl) c' (by simpa using hc')

/-- All twelve interpolated fields of `p` lie on the line between `c1` and `c2`. -/
def PoseOnLine (c1 c2 p : CamPose K) (q : K) : Prop :=
  OnLine c1.t c1.northings c2.t c2.northings q p.northings
  ∧ OnLine c1.t c1.eastings c2.t c2.eastings q p.eastings
  ∧ OnLine c1.t c1.depth c2.t c2.depth q p.depth
  ∧ OnLine c1.t c1.latitude c2.t c2.latitude q p.latitude
  ∧ OnLine c1.t c1.longitude c2.t c2.longitude q p.longitude
  ∧ OnLine c1.t c1.roll c2.t c2.roll q p.roll
  ∧ OnLine c1.t c1.pitch c2.t c2.pitch q p.pitch
  ∧ OnLine c1.t c1.yaw c2.t c2.yaw q p.yaw
  ∧ OnLine c1.t c1.vx c2.t c2.vx q p.vx
  ∧ OnLine c1.t c1.vy c2.t c2.vy q p.vy
  ∧ OnLine c1.t c1.vz c2.t c2.vz q p.vz
  ∧ OnLine c1.t c1.altitude c2.t c2.altitude q p.altitude

/-- What C05 asks for: for a query strictly between two consecutive states, the northing is on the line
between those two states. -/
def CameraBracketed (K : Type) [Field K] [LinearOrder K] : Prop :=
  ∀ (q : K) (cams : List (CamPose K)) (name : String) (k : Nat) (c1 c2 p : CamPose K),
    cams.Pairwise (fun a b => a.t < b.t) → cams[k]? = some c1 → cams[k + 1]? = some c2 →
    c1.t < q → q ≤ c2.t → interpolateCamera q cams name = .ok p →
    OnLine c1.t c1.northings c2.t c2.northings q p.northings

private def cam0 (t n yaw : ℚ) : CamPose ℚ := ⟨"", t, n, 0, 0, 0, 0, 0, 0, yaw, 0, 0, 0, 0⟩

/-- C05 as stated is false: a query between the first and second states gets the second state's values. -/
theorem C05_bracketed_false : ¬ CameraBracketed ℚ := by
  intro h
  have := h 5 [cam0 0 0 0, cam0 10 100 0] "x" 0 (cam0 0 0 0) (cam0 10 100 0)
    ⟨"x", 5, 100, 0, 0, 0, 0, 0, 0, 0, 0, 0, 0, 0⟩
    (by simp [cam0]) rfl rfl (by norm_num [cam0]) (by norm_num [cam0])
    (by norm_num [interpolateCamera, camIndex, cam0, interpolate])
  norm_num [OnLine, cam0] at this

/-- C05: the heading of a camera interpolated across north is wrong by up to 180 degrees: half way
from 350 to 10 degrees yields 180, where 0 (or 360) is right. -/
theorem C05_heading_false : ∃ (cams : List (CamPose ℚ)) (p : CamPose ℚ),
    interpolateCamera 25 cams "x" = .ok p ∧
      cams = [cam0 0 0 350, cam0 10 0 350, cam0 20 0 350, cam0 30 0 10] ∧ p.yaw = 180 ∧
      headingDist p.yaw 350 = 170 := by
  refine ⟨_, ⟨"x", 25, 0, 0, 0, 0, 0, 0, 0, 180, 0, 0, 0, 0⟩, ?_, rfl, rfl, ?_⟩
  · norm_num [interpolateCamera, camIndex, cam0, interpolate]
  · norm_num [headingDist]

/-- C05 (partial): a query strictly after the second state and at or before some later state is interpolated,
in every field, between the two consecutive states that enclose it; time and filename are the
requested ones. Missing: queries between the first two states, and the heading short way. -/
theorem C05_bracketed_partial (q : K) (cams : List (CamPose K)) (name : String) (k : Nat)
    (c1 c2 : CamPose K) (hs : cams.Pairwise (fun a b => a.t < b.t)) (hk : 1 ≤ k)
    (h1 : cams[k]? = some c1) (h2 : cams[k + 1]? = some c2) (hq1 : c1.t < q) (hq2 : q ≤ c2.t) :
    ∃ p, interpolateCamera q cams name = .ok p ∧ p.t = q ∧ p.filename = name ∧ PoseOnLine c1 c2 p q := by
  have hne : cams ≠ [] := by rintro rfl; simp at h1
  obtain ⟨i, hi, hlt, hb, ha⟩ := camIndex_spec q cams 0 hne
  have hlk : k + 1 < cams.length := (List.getElem?_eq_some_iff.mp h2).1
  have hik : i = k + 1 := by
    rcases lt_trichotomy i (k + 1) with h | h | h
    · exfalso
      have hil : i < cams.length := hlt
      have hg : cams[i]? = some cams[i] := List.getElem?_eq_getElem hil
      have hqi := ha (by omega) _ hg
      have : cams[i].t ≤ c1.t := by
        obtain ⟨hkl, hke⟩ := List.getElem?_eq_some_iff.mp h1
        rcases Nat.lt_or_ge i k with hlt' | hge
        · have := List.pairwise_iff_getElem.mp hs i k hil hkl hlt'
          rw [hke] at this; exact this.le
        · have : i = k := by omega
          subst this; rw [hke]
      linarith
    · exact h
    · exfalso
      have := hb (k + 1) c2 h h2
      linarith
  have hidx : camIndex q 0 cams = k + 1 := by rw [hi]; omega
  have htne : c1.t ≠ c2.t := by intro h; rw [h] at hq1; linarith
  have hk1 : (if k + 1 > 1 then k + 1 - 1 else k + 1) = k := by rw [if_pos (by omega)]; omega
  simp only [interpolateCamera, hidx, h2, hk1, h1]
  refine ⟨_, rfl, rfl, rfl, ?_⟩
  simp only [PoseOnLine]
  refine ⟨?_, ?_, ?_, ?_, ?_, ?_, ?_, ?_, ?_, ?_, ?_, ?_⟩ <;> exact C03_on_line _ _ _ _ _ htne

/-- C05: an empty list of states raises `IndexError`. -/
theorem C05_empty (q : K) (name : String) :
    interpolateCamera q ([] : List (CamPose K)) name = .error .indexError := by
  simp [interpolateCamera, camIndex]

example : ∃ p, interpolateCamera (K := ℚ) 15 [cam0 0 0 0, cam0 10 0 0, cam0 20 100 0] "x" = .ok p
    ∧ p.northings = 50 := by
  refine ⟨⟨"x", 15, 50, 0, 0, 0, 0, 0, 0, 0, 0, 0, 0, 0⟩, ?_, rfl⟩
  norm_num [interpolateCamera, camIndex, cam0, interpolate]

end Oplab.Props
