import Verif.Spec.Arcball
import Mathlib.Tactic.LinearCombination
import Mathlib.Tactic.FieldSimp
import Mathlib.Tactic.Positivity

/-! # C287 and C288: view volumes, the trackball and random quaternions -/

namespace Oplab.Props
open Oplab Spec Real

private theorem scaled (l r x : ℝ) (h : l < r) :
    (-1 ≤ (2 * x - (r + l)) / (r - l) ∧ (2 * x - (r + l)) / (r - l) ≤ 1) ↔ l ≤ x ∧ x ≤ r := by
  have hp : 0 < r - l := sub_pos.mpr h
  rw [le_div_iff₀ hp, div_le_iff₀ hp]
  constructor <;> rintro ⟨a, b⟩ <;> constructor <;> linarith

/-- **C287**: of a box, exactly the points inside get coordinates from -1 to 1. -/
theorem C287_box (l r b t n f : ℝ) (m : Hom4) (h : clipMatrix l r b t n f false = .ok m) (v w : V3 ℝ) (hw : Takes m v w) :
    InCube w ↔ InBox l r b t n f v := by
  unfold clipMatrix at h
  split at h
  · cases h
  rename_i hc
  push Not at hc
  obtain ⟨h1, h2, h3⟩ := hc
  simp only [Bool.false_eq_true, if_false] at h
  cases h
  obtain ⟨-, rfl⟩ := hw
  have e : ∀ l r x : ℝ, l < r → 2 / (r - l) * x + (r + l) / (l - r) = (2 * x - (r + l)) / (r - l) := by
    intro l r x h
    have h1 : r - l ≠ 0 := (sub_pos.mpr h).ne'
    rw [← neg_sub r l, div_neg]
    field_simp
    ring
  simp only [InCube, InBox, homVec, matVec, vecAdd, vecDot, smul, zero_mul, zero_add, add_zero, div_one, one_mul]
  rw [e _ _ _ h1, e _ _ _ h2, e _ _ _ h3, scaled _ _ _ h1, scaled _ _ _ h2, scaled _ _ _ h3]

/-- **C287**: of a pyramid, exactly the points inside get coordinates from -1 to 1. -/
theorem C287_pyramid (l r b t n f : ℝ) (m : Hom4) (h : clipMatrix l r b t n f true = .ok m) (v w : V3 ℝ) (hw : Takes m v w) :
    InCube w ↔ InPyramid l r b t n f v := by
  unfold clipMatrix at h
  split at h
  · cases h
  rename_i hc
  push Not at hc
  obtain ⟨h1, h2, h3⟩ := hc
  simp only [if_true] at h
  split at h
  · cases h
  rename_i hn
  have hn0 : 0 < n := lt_trans (by unfold quatEps; positivity) (not_le.mp hn)
  cases h
  obtain ⟨hz, rfl⟩ := hw
  have hz : v.z ≠ 0 := by
    intro h0
    apply hz
    simp [homVec, vecDot, h0]
  have e : ∀ l r x : ℝ, l < r → 1 / -v.z * (-(2 * n) / (r - l) * x + (r + l) / (r - l) * v.z) = (2 * (n * x / v.z) - (r + l)) / (r - l) := by
    intro l r x h
    have h1 : r - l ≠ 0 := (sub_pos.mpr h).ne'
    field_simp
    ring
  have e3 : 1 / -v.z * (-(f + n) / (f - n) * v.z + 2 * n * f / (f - n)) = (f + n - 2 * n * f / v.z) / (f - n) := by
    have h1 : f - n ≠ 0 := (sub_pos.mpr h3).ne'
    field_simp
    ring
  have hf : 0 < f := hn0.trans h3
  have hp : 0 < f - n := sub_pos.mpr h3
  have k3 : (-1 ≤ (f + n - 2 * n * f / v.z) / (f - n) ∧ (f + n - 2 * n * f / v.z) / (f - n) ≤ 1) ↔ n ≤ v.z ∧ v.z ≤ f := by
    rw [le_div_iff₀ hp, div_le_iff₀ hp]
    constructor
    · rintro ⟨a, c⟩
      have hq : 0 < 2 * n * f / v.z := by linarith
      have hv : 0 < v.z := by
        by_contra hneg
        have : 2 * n * f / v.z ≤ 0 := div_nonpos_of_nonneg_of_nonpos (by positivity) (not_lt.mp hneg)
        linarith
      have a' : 2 * n * f / v.z ≤ 2 * f := by linarith
      have c' : 2 * n ≤ 2 * n * f / v.z := by linarith
      rw [div_le_iff₀ hv] at a'
      rw [le_div_iff₀ hv] at c'
      constructor
      · nlinarith
      · nlinarith
    · rintro ⟨a, c⟩
      have hv : 0 < v.z := lt_of_lt_of_le hn0 a
      have a' : 2 * n * f / v.z ≤ 2 * f := by rw [div_le_iff₀ hv]; nlinarith
      have c' : 2 * n ≤ 2 * n * f / v.z := by rw [le_div_iff₀ hv]; nlinarith
      constructor <;> linarith
  simp only [InCube, InPyramid, homVec, matVec, vecAdd, vecDot, smul, zero_mul, zero_add, add_zero, neg_mul, one_mul]
  have e1 := e l r v.x h1
  have e2 := e b t v.y h2
  rw [e1, e2, e3, scaled _ _ _ h1, scaled _ _ _ h2, k3]

/-- **C287**: exactly the volumes with their sides in order are accepted, pyramids only if they begin in front of the tip. -/
theorem C287_accepted (l r b t n f : ℝ) (persp : Bool) :
    (∃ m, clipMatrix l r b t n f persp = .ok m) ↔ l < r ∧ b < t ∧ n < f ∧ (persp = true → quatEps < n) := by
  unfold clipMatrix
  by_cases hc : l ≥ r ∨ b ≥ t ∨ n ≥ f
  · rw [if_pos hc]
    constructor
    · rintro ⟨m, h⟩; cases h
    · rintro ⟨h1, h2, h3, -⟩
      rcases hc with h | h | h <;> linarith
  · rw [if_neg hc]
    push Not at hc
    cases persp
    · simp [hc]
    · by_cases hn : n ≤ quatEps
      · simp [hn]
      · simp only [if_true, if_neg hn]
        exact ⟨fun _ => ⟨hc.1, hc.2.1, hc.2.2, fun _ => not_le.mp hn⟩, fun _ => ⟨_, rfl⟩⟩

/-- **C288**: random quaternions have the length 1, whatever is drawn. -/
theorem C288_random (a b c : ℝ) (h0 : 0 ≤ a) (h1 : a ≤ 1) : (randomQuaternion a b c).sq = 1 := by
  have e1 := Real.mul_self_sqrt h0
  have e2 := Real.mul_self_sqrt (sub_nonneg.mpr h1)
  have s1 := Real.sin_sq_add_cos_sq (π * 2 * b)
  have s2 := Real.sin_sq_add_cos_sq (π * 2 * c)
  simp only [randomQuaternion, RosQuat.sq]
  linear_combination (√(1 - a) * √(1 - a)) * s1 + (√a * √a) * s2 + e1 + e2

/-- **C288**: points of the window are taken to the near half of the sphere; inside the circle they stay where they are in the window. -/
theorem C288_sphere (px py cx cy r : ℝ) :
    len (arcballMap px py cx cy r) = 1 ∧ 0 ≤ (arcballMap px py cx cy r).z ∧
      ((px - cx) ^ 2 + (py - cy) ^ 2 ≤ r ^ 2 → r ≠ 0 →
        r * (arcballMap px py cx cy r).x = px - cx ∧ r * (arcballMap px py cx cy r).y = cy - py) := by
  unfold arcballMap
  simp only
  generalize hx : (px - cx) / r = x
  generalize hy : (cy - py) / r = y
  by_cases hn : x * x + y * y > 1
  · rw [if_pos hn]
    have hp : 0 < x * x + y * y := by linarith
    have hs := Real.mul_self_sqrt hp.le
    have hq : √(x * x + y * y) ≠ 0 := (Real.sqrt_pos.mpr hp).ne'
    refine ⟨?_, by simp, ?_⟩
    · have : Spec.dot ⟨x / √(x * x + y * y), y / √(x * x + y * y), 0 / √(x * x + y * y)⟩
          ⟨x / √(x * x + y * y), y / √(x * x + y * y), 0 / √(x * x + y * y)⟩ = 1 := by
        simp only [Spec.dot]
        generalize √(x * x + y * y) = q at hs hq
        field_simp
        linear_combination -hs
      rw [len, this, Real.sqrt_one]
    · intro hi hr
      exfalso
      have : x * x + y * y = ((px - cx) ^ 2 + (py - cy) ^ 2) / r ^ 2 := by rw [← hx, ← hy]; field_simp; ring
      rw [this, gt_iff_lt, lt_div_iff₀ (by positivity)] at hn
      linarith
  · rw [if_neg hn]
    have h1 := Real.mul_self_sqrt (sub_nonneg.mpr (not_lt.mp hn))
    refine ⟨?_, Real.sqrt_nonneg _, ?_⟩
    · have : Spec.dot ⟨x, y, √(1 - (x * x + y * y))⟩ ⟨x, y, √(1 - (x * x + y * y))⟩ = 1 := by
        simp only [Spec.dot]
        linear_combination h1
      rw [len, this, Real.sqrt_one]
    · intro _ hr
      rw [← hx, ← hy]
      constructor <;> field_simp

private theorem len_sq (v : V3 ℝ) : len v * len v = v.x * v.x + v.y * v.y + v.z * v.z := by
  unfold len Spec.dot
  exact Real.mul_self_sqrt (by nlinarith [mul_self_nonneg v.x, mul_self_nonneg v.y, mul_self_nonneg v.z])

private theorem len_one (v : V3 ℝ) (h : v.x * v.x + v.y * v.y + v.z * v.z = 1) : len v = 1 := by
  unfold len Spec.dot
  rw [h, Real.sqrt_one]

/-- **C288** (partial): a point brought to the arc of an axis is on the near half of the sphere and across the axis. Missing: the axis that points
straight away. -/
theorem C288_arc_partial (p a : V3 ℝ) (ha : len a = 1) (hz : a.z ≠ -1) :
    len (arcballConstrain p a) = 1 ∧ Spec.dot (arcballConstrain p a) a = 0 ∧ 0 ≤ (arcballConstrain p a).z := by
  have h1 : a.x * a.x + a.y * a.y + a.z * a.z = 1 := by rw [← len_sq, ha, one_mul]
  unfold arcballConstrain
  simp only
  have hv : vecDot (vecAdd p (vecScale (-vecDot a p) a)) a = 0 := by
    simp only [vecDot, vecAdd, vecScale]
    linear_combination (-(a.x * p.x + a.y * p.y + a.z * p.z)) * h1
  generalize vecAdd p (vecScale (-vecDot a p) a) = v at hv
  have hvn : vecNorm v = len v := rfl
  rw [hvn]
  by_cases hn : len v > quatEps
  · rw [if_pos hn]
    have hL : 0 < len v := lt_trans (by unfold quatEps; positivity) hn
    have hs := len_sq v
    simp only [vecDot] at hv
    by_cases c : v.z < 0
    · simp only [if_pos c, vecScale]
      refine ⟨len_one _ ?_, ?_, ?_⟩
      · simp only
        generalize len v = L at hL hs
        field_simp
        linear_combination -hs
      · simp only [Spec.dot]
        generalize len v = L at hL hs
        field_simp
        linear_combination -hv
      · exact div_nonneg (by linarith) hL.le
    · simp only [if_neg c]
      refine ⟨len_one _ ?_, ?_, ?_⟩
      · simp only
        generalize len v = L at hL hs
        field_simp
        linear_combination -hs
      · simp only [Spec.dot]
        generalize len v = L at hL hs
        field_simp
        linear_combination hv
      · exact div_nonneg (not_lt.mp c) hL.le
  · rw [if_neg hn]
    by_cases hz1 : a.z = 1
    · rw [if_pos hz1]
      have hxy : a.x * a.x + a.y * a.y = 0 := by rw [hz1] at h1; linarith
      have hx : a.x = 0 := by nlinarith [mul_self_nonneg a.x, mul_self_nonneg a.y]
      exact ⟨len_one _ (by norm_num), by simp [Spec.dot, hx], le_refl _⟩
    · rw [if_neg hz1]
      have hq : 0 < len ⟨-a.y, a.x, 0⟩ := by
        unfold len Spec.dot
        apply Real.sqrt_pos.mpr
        simp only
        have : a.z * a.z ≠ 1 := by
          intro h
          rcases mul_self_eq_one_iff.mp h with h | h
          · exact hz1 h
          · exact hz h
        have h2 : a.x * a.x + a.y * a.y ≠ 0 := fun h => this (by linarith)
        have h3 : 0 ≤ a.x * a.x + a.y * a.y := by nlinarith [mul_self_nonneg a.x, mul_self_nonneg a.y]
        have := lt_of_le_of_ne h3 (Ne.symm h2)
        linarith
      have hs := len_sq ⟨-a.y, a.x, 0⟩
      have hu : unitVec ⟨-a.y, a.x, 0⟩ = ⟨-a.y / len ⟨-a.y, a.x, 0⟩, a.x / len ⟨-a.y, a.x, 0⟩, 0 / len ⟨-a.y, a.x, 0⟩⟩ := rfl
      rw [hu]
      generalize len ⟨-a.y, a.x, 0⟩ = L at hq hs
      refine ⟨len_one _ ?_, ?_, ?_⟩
      · simp only at hs ⊢
        field_simp
        linear_combination -hs
      · simp only [Spec.dot]
        field_simp
        ring
      · simp

/-- **C288** is false of the axis that points straight away: there is no direction to normalise (the code then gives nan). -/
theorem C288_arc_false : ¬ OnArc := by
  intro h
  have hl : len ⟨0, 0, -1⟩ = 1 := len_one _ (by norm_num)
  have := (h ⟨0, 0, 1⟩ ⟨0, 0, -1⟩ hl).1
  have e : arcballConstrain ⟨0, 0, 1⟩ ⟨0, 0, -1⟩ = ⟨0, 0, 0⟩ := by
    have hq : ¬ (0 : ℝ) > quatEps := by unfold quatEps; norm_num
    have hz : ¬ (-1 : ℝ) = 1 := by norm_num
    simp [arcballConstrain, vecAdd, vecScale, vecDot, vecNorm, hq, hz, unitVec]
  rw [e] at this
  simp [len, Spec.dot] at this

private theorem nearest_aux (p : V3 ℝ) : ∀ (l : List (V3 ℝ)) (best : Option (V3 ℝ)) (mx : ℝ) (a : V3 ℝ),
    arcballNearest p best mx l = some a →
      (best = some a ∧ ∀ b ∈ l, Spec.dot (arcballConstrain p b) p ≤ mx) ∨
      (a ∈ l ∧ mx < Spec.dot (arcballConstrain p a) p ∧ ∀ b ∈ l, Spec.dot (arcballConstrain p b) p ≤ Spec.dot (arcballConstrain p a) p)
  | [], best, mx, a, h => .inl ⟨h, by simp⟩
  | x :: l, best, mx, a, h => by
    have hd : vecDot (arcballConstrain p x) p = Spec.dot (arcballConstrain p x) p := rfl
    simp only [arcballNearest, hd] at h
    split at h
    · rename_i hc
      rcases nearest_aux p l _ _ a h with ⟨e, hall⟩ | ⟨hm, hlt, hall⟩
      · cases e
        refine .inr ⟨List.mem_cons_self, hc, ?_⟩
        intro b hb
        rcases List.mem_cons.mp hb with rfl | hb
        · exact le_refl _
        · exact hall b hb
      · refine .inr ⟨List.mem_cons_of_mem _ hm, lt_trans hc hlt, ?_⟩
        intro b hb
        rcases List.mem_cons.mp hb with rfl | hb
        · exact hlt.le
        · exact hall b hb
    · rename_i hc
      rcases nearest_aux p l _ _ a h with ⟨e, hall⟩ | ⟨hm, hlt, hall⟩
      · refine .inl ⟨e, ?_⟩
        intro b hb
        rcases List.mem_cons.mp hb with rfl | hb
        · exact not_lt.mp hc
        · exact hall b hb
      · refine .inr ⟨List.mem_cons_of_mem _ hm, hlt, ?_⟩
        intro b hb
        rcases List.mem_cons.mp hb with rfl | hb
        · exact (not_lt.mp hc).trans hlt.le
        · exact hall b hb

/-- **C288**: the axis that is chosen is one of those given, and no other arc is nearer to the point. -/
theorem C288_nearest (p : V3 ℝ) (axes : List (V3 ℝ)) (a : V3 ℝ) (h : arcballNearest p none (-1) axes = some a) :
    a ∈ axes ∧ ∀ b ∈ axes, Spec.dot (arcballConstrain p b) p ≤ Spec.dot (arcballConstrain p a) p := by
  rcases nearest_aux p axes none (-1) a h with ⟨e, -⟩ | ⟨hm, -, hall⟩
  · cases e
  · exact ⟨hm, hall⟩

private theorem arc_above (p a : V3 ℝ) (hp : len p = 1) (hpz : 0 ≤ p.z) (ha : len a = 1) (hz : a.z ≠ -1) :
    -1 < Spec.dot (arcballConstrain p a) p := by
  obtain ⟨w1, w2, w3⟩ := C288_arc_partial p a ha hz
  by_contra hc
  have hp1 := len_sq p
  have hw1 := len_sq (arcballConstrain p a)
  rw [hp] at hp1
  rw [w1] at hw1
  have e : arcballConstrain p a = smul (-1) p := by
    generalize arcballConstrain p a = w at *
    simp only [Spec.dot, not_lt] at hc
    have hsum : (w.x + p.x) ^ 2 + (w.y + p.y) ^ 2 + (w.z + p.z) ^ 2 ≤ 0 := by nlinarith
    have hx : w.x + p.x = 0 := by nlinarith [sq_nonneg (w.x + p.x), sq_nonneg (w.y + p.y), sq_nonneg (w.z + p.z)]
    have hy : w.y + p.y = 0 := by nlinarith [sq_nonneg (w.x + p.x), sq_nonneg (w.y + p.y), sq_nonneg (w.z + p.z)]
    have hz : w.z + p.z = 0 := by nlinarith [sq_nonneg (w.x + p.x), sq_nonneg (w.y + p.y), sq_nonneg (w.z + p.z)]
    cases w
    simp only [smul, V3.mk.injEq]
    simp only at hx hy hz
    exact ⟨by linarith, by linarith, by linarith⟩
  rw [e] at w2 w3
  simp only [smul, Spec.dot] at w2 w3
  have h0 : p.z = 0 := by linarith
  have hd : vecDot a p = 0 := by simp only [vecDot]; linarith
  have hv : vecAdd p (vecScale (-vecDot a p) a) = p := by
    rw [hd]
    simp [vecAdd, vecScale]
  have hn : vecNorm p = 1 := hp
  have hq : (1 : ℝ) > quatEps := by unfold quatEps; norm_num
  have e2 : arcballConstrain p a = p := by
    unfold arcballConstrain
    simp only [hv, hn, if_pos hq, h0, lt_irrefl, if_false, div_one]
    rw [← h0]
  rw [e2] at e
  have ex := congrArg V3.x e
  have ey := congrArg V3.y e
  simp only [smul] at ex ey
  have hx : p.x = 0 := by linarith
  have hy : p.y = 0 := by linarith
  rw [hx, hy, h0] at hp1
  norm_num at hp1

private theorem nearest_some (p : V3 ℝ) : ∀ (l : List (V3 ℝ)) (best : V3 ℝ) (mx : ℝ), ∃ a, arcballNearest p (some best) mx l = some a
  | [], best, _ => ⟨best, rfl⟩
  | x :: l, best, mx => by
    simp only [arcballNearest]
    split
    · exact nearest_some p l _ _
    · exact nearest_some p l _ _

/-- **C288**: for a point on the near half of the sphere an axis is always chosen. -/
theorem C288_chosen (p : V3 ℝ) (axes : List (V3 ℝ)) (hp : len p = 1) (hpz : 0 ≤ p.z) (hne : axes ≠ [])
    (ha : ∀ a ∈ axes, len a = 1 ∧ a.z ≠ -1) : ∃ a, arcballNearest p none (-1) axes = some a := by
  cases axes with
  | nil => exact absurd rfl hne
  | cons a l =>
    have h := arc_above p a hp hpz (ha a List.mem_cons_self).1 (ha a List.mem_cons_self).2
    have hd : vecDot (arcballConstrain p a) p = Spec.dot (arcballConstrain p a) p := rfl
    simp only [arcballNearest, hd]
    rw [if_pos h]
    exact nearest_some p l _ _

/-- A pyramid that is accepted, and a point inside. -/
example : (∃ m, clipMatrix (-1) 1 (-1) 1 1 3 true = .ok m) ∧ InPyramid (-1) 1 (-1) 1 1 3 ⟨1, -1, 2⟩ := by
  refine ⟨(C287_accepted _ _ _ _ _ _ _).mpr ⟨by norm_num, by norm_num, by norm_num, fun _ => ?_⟩, ?_⟩
  · unfold quatEps; norm_num
  · norm_num [InPyramid]

/-- An axis that can be used. -/
example : len ⟨0, 0, 1⟩ = 1 ∧ (⟨0, 0, 1⟩ : V3 ℝ).z ≠ -1 := ⟨len_one _ (by norm_num), by norm_num⟩

/-- The only axis is chosen for a point on its arc. -/
example : arcballNearest ⟨0, 1, 0⟩ none (-1) [⟨0, 0, 1⟩] = some ⟨0, 0, 1⟩ := by
  have hq : (1 : ℝ) > quatEps := by unfold quatEps; norm_num
  have e : arcballConstrain ⟨0, 1, 0⟩ ⟨0, 0, 1⟩ = ⟨0, 1, 0⟩ := by
    simp [arcballConstrain, vecAdd, vecScale, vecDot, vecNorm, hq]
  simp only [arcballNearest, e, vecDot]
  norm_num

end Oplab.Props
