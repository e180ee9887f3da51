import Verif.Spec.VirtualLaser
import Mathlib.Tactic.Linarith
import Mathlib.Tactic.NormNum
import Mathlib.Tactic.FieldSimp
import Mathlib.Tactic.Ring

/-! C267: virtual images of a laser line. -/

namespace Oplab.Props
open Oplab Oplab.Spec

private theorem npIndex_nat {n k : ℕ} (h : k < n) : npIndex n (k : Int) = some k := by
  unfold npIndex
  rw [if_pos (by omega), if_pos (by omega)]
  simp

private theorem set_ok {img : GreyImage} {r c : ℕ} (hr : r < img.height) (hc : c < img.width) (v : ℕ) :
    setPixel img (r : Int) (c : Int) v = .ok { img with at' := fun i j => if i = r ∧ j = c then v else img.at' i j } := by
  unfold setPixel
  rw [npIndex_nat hr, npIndex_nat hc]

/-- **C267**: two rows next to a point get brightness, the rest of the image stays. -/
theorem C267_pixels (img : GreyImage) (c m : ℕ) (f : ℚ) (hc : c < img.width) (hm : m + 1 < img.height) (h0 : 0 < f) (h1 : f < 1) :
    ∃ img', drawGaussian img c (m + f) = .ok img' ∧ img'.height = img.height ∧ img'.width = img.width ∧
      img'.at' (m + 1) c = ⌊f * 255⌋.toNat ∧ img'.at' m c = ⌊(1 - f) * 255⌋.toNat ∧
      ∀ i j, j ≠ c ∨ i ≠ m ∧ i ≠ m + 1 → img'.at' i j = img.at' i j := by
  have hf : ⌊(m : ℚ) + f⌋ = (m : Int) := by
    rw [Int.floor_eq_iff]; push_cast; constructor <;> linarith
  have hce : ⌈(m : ℚ) + f⌉ = ((m + 1 : ℕ) : Int) := by
    rw [Int.ceil_eq_iff]; push_cast; constructor <;> linarith
  have e1 : (m : ℚ) + f - ((m : Int) : ℚ) = f := by push_cast; ring
  have e2 : (((m + 1 : ℕ) : Int) : ℚ) - ((m : ℚ) + f) = 1 - f := by push_cast; ring
  unfold drawGaussian
  simp only [hf, hce, e1, e2]
  rw [if_pos (by omega), set_ok hm hc]
  have s2 := set_ok (img := { img with at' := fun i j => if i = m + 1 ∧ j = c then ⌊f * 255⌋.toNat else img.at' i j }) (r := m) (c := c)
    (by show m < img.height; omega) hc ⌊(1 - f) * 255⌋.toNat
  refine ⟨_, s2, rfl, rfl, ?_, ?_, ?_⟩
  · simp
  · simp
  · intro i j h
    rcases h with h | ⟨h1, h2⟩ <;> simp [*]

/-- **C267** (partial: points between two rows): the two rows share the brightness so that its centre is at the point, up to rounding down. -/
theorem C267_centre_partial (img img' : GreyImage) (c m : ℕ) (f : ℚ) (hc : c < img.width) (hm : m + 1 < img.height) (h0 : 0 < f) (h1 : f < 1)
    (h : drawGaussian img c (m + f) = .ok img') :
    254 ≤ img'.at' m c + img'.at' (m + 1) c ∧ img'.at' m c + img'.at' (m + 1) c ≤ 255 ∧
      |(img'.at' m c * m + img'.at' (m + 1) c * (m + 1) : ℚ) - (img'.at' m c + img'.at' (m + 1) c) * (m + f)| < 1 := by
  obtain ⟨i2, h2, _, _, ha, hb, _⟩ := C267_pixels img c m f hc hm h0 h1
  rw [h] at h2
  cases h2
  rw [ha, hb]
  have p1 : 0 ≤ ⌊f * 255⌋ := Int.floor_nonneg.mpr (by linarith)
  have p2 : 0 ≤ ⌊(1 - f) * 255⌋ := Int.floor_nonneg.mpr (by linarith)
  have a1 := Int.floor_le (f * 255)
  have a2 := Int.lt_floor_add_one (f * 255)
  have b1 := Int.floor_le ((1 - f) * 255)
  have b2 := Int.lt_floor_add_one ((1 - f) * 255)
  obtain ⟨a, ea⟩ := Int.eq_ofNat_of_zero_le p1
  obtain ⟨b, eb⟩ := Int.eq_ofNat_of_zero_le p2
  rw [ea] at a1 a2 ⊢
  rw [eb] at b1 b2 ⊢
  simp only [Int.toNat_natCast, Int.cast_natCast] at *
  refine ⟨?_, ?_, ?_⟩
  · have : ((253 : ℕ) : ℚ) < ((b + a : ℕ) : ℚ) := by push_cast; linarith
    have := Nat.cast_lt.mp this
    omega
  · have : ((b + a : ℕ) : ℚ) ≤ ((255 : ℕ) : ℚ) := by push_cast; linarith
    exact Nat.cast_le.mp this
  · have e : (b * m + a * (m + 1) : ℚ) - (b + a) * (m + f) = (a - f * 255) * (1 - f) + ((1 - f) * 255 - b) * f := by ring
    rw [e, abs_lt]
    constructor <;> nlinarith

/-- A case: a point a quarter of a row below row 3. -/
example : ∃ img', drawGaussian ⟨10, 10, fun _ _ => 0⟩ (2 : ℕ) ((3 : ℕ) + 1 / 4) = .ok img' ∧ img'.at' 3 2 = 191 ∧ img'.at' 4 2 = 63 := by
  obtain ⟨img', h, _, _, h4, h3, _⟩ := C267_pixels ⟨10, 10, fun _ _ => 0⟩ 2 3 (1 / 4) (by decide) (by decide) (by norm_num) (by norm_num)
  exact ⟨img', h, by rw [h3]; decide +kernel, by rw [h4]; decide +kernel⟩

private theorem whole (img : GreyImage) (c m : ℕ) (hc : c < img.width) (hm : m < img.height) :
    ∃ img', drawGaussian img c m = .ok img' ∧ img'.at' m c = 0 ∧ ∀ i, i ≠ m → img'.at' i c = img.at' i c := by
  unfold drawGaussian
  simp only [Int.ceil_natCast, Int.floor_natCast, Int.cast_natCast, sub_self, zero_mul, Int.floor_zero, Int.toNat_zero]
  rw [if_pos (by omega), set_ok hm hc]
  have s2 := set_ok (img := { img with at' := fun i j => if i = m ∧ j = c then 0 else img.at' i j }) (r := m) (c := c) hm hc 0
  refine ⟨_, s2, by simp, fun i hi => by simp [hi]⟩

/-- **C267**: a point right on a row is not drawn. -/
theorem C267_drawn_false : ¬ PointDrawn := by
  intro h
  obtain ⟨img', h1, h2, h3⟩ := whole ⟨10, 10, fun _ _ => 0⟩ 2 3 (by decide) (by decide)
  obtain ⟨r, _, hr⟩ := h ⟨10, 10, fun _ _ => 0⟩ img' 2 ((3 : ℕ) : ℚ) (by decide) (by norm_num) (by norm_num) h1
  by_cases e : r = 3
  · subst e; omega
  · rw [h3 r e] at hr; simp at hr

/-- **C267** (partial: points between two rows). -/
theorem C267_drawn_partial (img img' : GreyImage) (c m : ℕ) (f : ℚ) (hc : c < img.width) (hm : m + 1 < img.height) (h0 : 0 < f) (h1 : f < 1)
    (h : drawGaussian img c (m + f) = .ok img') : ∃ r : ℕ, |(r : ℚ) - (m + f)| < 1 ∧ 127 ≤ img'.at' r c := by
  obtain ⟨h2, _, _⟩ := C267_centre_partial img img' c m f hc hm h0 h1 h
  by_cases h3 : 127 ≤ img'.at' m c
  · exact ⟨m, by rw [abs_lt]; constructor <;> linarith, h3⟩
  · refine ⟨m + 1, by push_cast; rw [abs_lt]; constructor <;> linarith, by omega⟩

/-- **C267**: a point on a row even removes what was drawn there before. -/
theorem C267_adds_false : ¬ DrawingAdds := by
  intro h
  obtain ⟨img', h1, h2, _⟩ := whole ⟨10, 10, fun _ _ => 200⟩ 2 3 (by decide) (by decide)
  have := h ⟨10, 10, fun _ _ => 200⟩ img' 2 ((3 : ℕ) : ℚ) (by decide) (by norm_num) (by norm_num) h1 3 2
  rw [h2] at this
  simp at this

private theorem linspace_get (a b : ℚ) (n : ℕ) (hn : 2 ≤ n) (k : ℕ) (hk : k < n) : (linspace a b n)[k]? = some (a + k * ((b - a) / (n - 1))) := by
  unfold linspace
  rw [if_neg (by omega)]
  simp [List.getElem?_map, hk]

/-- **C267**: altitudes start at the lowest, end at the highest and are all as far apart, by at least the step of the configuration. -/
theorem C267_altitudes (amin amax step : ℚ) (hs : 0 < step) (h : step ≤ amax - amin) :
    ∃ n : ℕ, 2 ≤ n ∧ (virtualAltitudes amin amax step).length = n ∧ (virtualAltitudes amin amax step)[0]? = some amin ∧
      (virtualAltitudes amin amax step)[n - 1]? = some amax ∧ step ≤ (amax - amin) / (n - 1) ∧ (amax - amin) / (n - 1) < 2 * step ∧
      ∀ k a b, (virtualAltitudes amin amax step)[k]? = some a → (virtualAltitudes amin amax step)[k + 1]? = some b →
        b - a = (amax - amin) / (n - 1) := by
  have f1 : 1 ≤ ⌊(amax - amin) / step⌋ := by
    rw [Int.le_floor, le_div_iff₀ hs]; push_cast; linarith
  have f2 := Int.floor_le ((amax - amin) / step)
  have f3 := Int.lt_floor_add_one ((amax - amin) / step)
  rw [le_div_iff₀ hs] at f2
  rw [div_lt_iff₀ hs] at f3
  unfold virtualAltitudes
  obtain ⟨m, em⟩ := Int.eq_ofNat_of_zero_le (show 0 ≤ ⌊(amax - amin) / step⌋ by omega)
  rw [em] at f1 f2 f3 ⊢
  have hn : ((m : Int) + 1).toNat = m + 1 := by omega
  rw [hn]
  have m1 : 1 ≤ m := by omega
  have mq : (1 : ℚ) ≤ m := by exact_mod_cast m1
  have hmp : (0 : ℚ) < m := by linarith
  have hsub : ((m + 1 : ℕ) : ℚ) - 1 = m := by push_cast; ring
  simp only [Int.cast_natCast] at f2 f3
  have hlen : (linspace amin amax (m + 1)).length = m + 1 := by
    unfold linspace; rw [if_neg (by omega)]; simp
  refine ⟨m + 1, by omega, hlen, ?_, ?_, ?_, ?_, ?_⟩
  · rw [linspace_get _ _ _ (by omega) _ (by omega)]; simp
  · rw [linspace_get _ _ _ (by omega) _ (by omega), hsub]
    simp only [Nat.add_sub_cancel, Option.some.injEq]
    field_simp
    ring
  · rw [hsub, le_div_iff₀ hmp]; linarith
  · rw [hsub, div_lt_iff₀ hmp]; nlinarith
  · intro k a b ha hb
    have hk : k + 1 < m + 1 := by
      by_contra hc
      rw [List.getElem?_eq_none (by omega)] at hb
      cases hb
    rw [linspace_get _ _ _ (by omega) _ (by omega)] at ha hb
    cases ha
    cases hb
    rw [hsub]
    push_cast
    ring

/-- **C267**: so the step of the configuration is kept only if it divides the range. -/
theorem C267_step_false : ¬ StepsKept := by
  intro h
  have := h 5 8 2 (by norm_num) (by norm_num) 0 5 8 (by decide +kernel) (by decide +kernel)
  norm_num at this

/-- **C267** (partial: planes across the vehicle, `y = -d`): points are on the laser plane. -/
theorem C267_plane_partial (d alt : ℚ) (width : ℕ) : ∀ p ∈ virtualPoints (⟨0, 1, 0⟩, d) alt width, OnVirtualPlane (⟨0, 1, 0⟩, d) p := by
  intro p hp
  obtain ⟨x, _, rfl⟩ := List.mem_map.mp hp
  simp [OnVirtualPlane]

/-- **C267**: the other coefficients of the laser plane are not used. -/
theorem C267_plane_false : ¬ PointsOnPlane := by
  intro h
  have := h (⟨0, 1, 1⟩, -1) 5 2 ⟨-(15 / 4), 1, 5⟩ (by decide +kernel)
  norm_num [OnVirtualPlane] at this

private theorem draw_ok (img : GreyImage) (c : ℕ) (y : ℚ) (hc : c < img.width) (h0 : 0 ≤ y) (h1 : y ≤ img.height - 1) :
    ∃ img', drawGaussian img c y = .ok img' ∧ img'.height = img.height ∧ img'.width = img.width := by
  unfold drawGaussian
  rw [if_pos (by exact_mod_cast hc)]
  obtain ⟨u, hu⟩ := Int.eq_ofNat_of_zero_le (Int.ceil_nonneg h0)
  obtain ⟨d, hd⟩ := Int.eq_ofNat_of_zero_le (Int.floor_nonneg.mpr h0)
  have hu1 : u < img.height := by
    have : ⌈y⌉ ≤ (img.height : Int) - 1 := by rw [Int.ceil_le]; push_cast; exact h1
    omega
  have hd1 : d < img.height := by
    have := Int.floor_le_ceil y
    omega
  simp only [hu, hd]
  rw [set_ok hu1 hc]
  have s2 := set_ok (img := { img with at' := fun i j => if i = u ∧ j = c then ⌊(y - ((d : Int) : ℚ)) * 255⌋.toNat else img.at' i j }) (r := d)
    (c := c) hd1 hc ⌊(((u : Int) : ℚ) - y) * 255⌋.toNat
  exact ⟨_, s2, rfl, rfl⟩

/-- **C267** (partial: no point is seen beyond the middle of the last row): images are made. -/
theorem C267_made_partial (w h : ℕ) (project : V3 ℚ → Option (ℚ × ℚ) × Option (ℚ × ℚ)) (hp : ProjectsInto w h w h project)
    (hl : ∀ p, (∀ q, (project p).1 = some q → q.2 ≤ h - 1) ∧ ∀ q, (project p).2 = some q → q.2 ≤ h - 1) (ps : List (V3 ℚ)) :
    ∃ r, drawAll w w project ps (⟨h, w, fun _ _ => 0⟩, ⟨h, w, fun _ _ => 0⟩) = .ok r := by
  suffices H : ∀ (ps : List (V3 ℚ)) (l r : GreyImage), l.height = h → l.width = w → r.height = h → r.width = w →
      ∃ s, drawAll w w project ps (l, r) = .ok s from H ps _ _ rfl rfl rfl rfl
  intro ps
  induction ps with
  | nil => intro l r _ _ _ _; exact ⟨_, rfl⟩
  | cons p ps ih =>
    intro l r l1 l2 r1 r2
    unfold drawAll
    split
    · rename_i lx ly rx ry hpr
      split
      · exact ih l r l1 l2 r1 r2
      · rename_i hin
        push Not at hin
        have c1 := (hp p).1 (lx, ly) (by rw [hpr])
        have c2 := (hp p).2 (rx, ry) (by rw [hpr])
        have d1 := (hl p).1 (lx, ly) (by rw [hpr])
        have d2 := (hl p).2 (rx, ry) (by rw [hpr])
        obtain ⟨l', e1, l1', l2'⟩ := draw_ok l (roundEven lx) ly (by omega) c1.2.2.1.le (by rw [l1]; exact d1)
        obtain ⟨r', e2, r1', r2'⟩ := draw_ok r (roundEven rx) ry (by omega) c2.2.2.1.le (by rw [r1]; exact d2)
        rw [e1, e2]
        exact ih l' r' (l1'.trans l1) (l2'.trans l2) (r1'.trans r1) (r2'.trans r2)
    · exact ih l r l1 l2 r1 r2

/-- **C267**: a point seen in the lower half of the last row ends the program. -/
theorem C267_made_false : ¬ ImagesMade := by
  intro h
  let project : V3 ℚ → Option (ℚ × ℚ) × Option (ℚ × ℚ) := fun _ => (some (1, 3 / 2), some (1, 3 / 2))
  have hp : ProjectsInto 2 2 2 2 project := by
    intro p
    constructor <;> intro q hq <;> cases hq <;> norm_num
  obtain ⟨r, hr⟩ := h 2 2 project hp [⟨0, 0, 1⟩]
  have e : drawGaussian ⟨2, 2, fun _ _ => 0⟩ (roundEven 1 : ℕ) (3 / 2) = .error .indexError := by
    have c1 : roundEven 1 = 1 := by decide +kernel
    have c2 : ⌈(3 / 2 : ℚ)⌉ = 2 := by rw [Int.ceil_eq_iff]; norm_num
    unfold drawGaussian
    rw [c1]
    simp only [c2]
    rfl
  have e2 : drawAll 2 2 project [⟨0, 0, 1⟩] (⟨2, 2, fun _ _ => 0⟩, ⟨2, 2, fun _ _ => 0⟩) = .error .indexError := by
    unfold drawAll
    have c1 : roundEven 1 = 1 := by decide +kernel
    simp only [project]
    rw [if_neg (by rw [c1]; decide), e]
    rfl
  rw [e2] at hr
  cases hr

/-- **C267**: an altitude has one and a half times as many points as an image has columns, evenly across the track. -/
theorem C267_points (plane : V3 ℚ × ℚ) (alt : ℚ) (width : ℕ) (hw : 2 ≤ width) :
    AcrossTrack (virtualPoints plane alt width) alt (3 * width / 2) := by
  have hn : 2 ≤ 3 * width / 2 := by omega
  have hl : (virtualPoints plane alt width).length = 3 * width / 2 := by
    unfold virtualPoints linspace
    rw [if_neg (by omega)]
    simp
  have hg : ∀ k, k < 3 * width / 2 → (virtualPoints plane alt width)[k]? =
      some ⟨-(3 / 4 * alt) + k * ((3 / 4 * alt - -(3 / 4 * alt)) / ((3 * width / 2 : ℕ) - 1)), -plane.2, alt⟩ := by
    intro k hk
    unfold virtualPoints
    rw [List.getElem?_map, linspace_get _ _ _ hn k hk]
    rfl
  have hq : ((3 * width / 2 : ℕ) : ℚ) - 1 ≠ 0 := by
    have : (2 : ℚ) ≤ ((3 * width / 2 : ℕ) : ℚ) := by exact_mod_cast hn
    intro h; linarith
  generalize 3 * width / 2 = n at *
  refine ⟨hl, ?_, ?_, ?_, ?_⟩
  · intro p hp
    unfold virtualPoints at hp
    obtain ⟨x, _, rfl⟩ := List.mem_map.mp hp
    rfl
  · rw [hg 0 (by omega)]; simp
  · rw [hg (n - 1) (by omega)]
    simp only [Option.map_some, Option.some.injEq]
    rw [Nat.cast_sub (by omega)]
    push_cast
    field_simp
    ring
  · intro k a b ha hb
    have hk : k + 1 < n := by
      rw [← hl]; exact (List.getElem?_eq_some_iff.mp hb).1
    rw [hg k (by omega)] at ha
    rw [hg (k + 1) hk] at hb
    cases ha; cases hb
    push_cast
    field_simp
    ring

example : AcrossTrack (virtualPoints (⟨0, 1, 0⟩, 2) 8 4) 8 6 := C267_points _ _ _ (by decide)

/-- Indices from the end, as numpy has them. -/
example : npIndex 5 (-5) = some 0 ∧ npIndex 5 (-1) = some 4 ∧ npIndex 5 (-6) = none ∧ npIndex 5 5 = none := by decide

end Oplab.Props
