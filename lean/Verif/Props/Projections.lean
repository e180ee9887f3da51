import Verif.Spec.Projections
import Mathlib.Tactic.LinearCombination
import Mathlib.Tactic.FieldSimp
import Mathlib.Tactic.Positivity

/-! # C286: projections, scaling and shear -/

namespace Oplab.Props
open Oplab Spec Real

private theorem unit_of (d : V3 ℝ) (h : len d ≠ 0) : ∃ k : V3 ℝ, unitVec d = k ∧ dirOf d = k ∧ d = smul (len d) k ∧
    k.x * k.x + k.y * k.y + k.z * k.z = 1 := by
  have hu : unitVec d = dirOf d := by
    unfold unitVec dirOf vecNorm len smul Spec.dot
    simp only [V3.mk.injEq]
    refine ⟨?_, ?_, ?_⟩ <;> ring
  refine ⟨dirOf d, hu, rfl, ?_, ?_⟩
  · unfold dirOf smul
    cases d
    simp only [V3.mk.injEq]
    refine ⟨?_, ?_, ?_⟩ <;> field_simp
  · have hs : len d * len d = Spec.dot d d :=
      Real.mul_self_sqrt (by unfold Spec.dot; nlinarith [mul_self_nonneg d.x, mul_self_nonneg d.y, mul_self_nonneg d.z])
    unfold dirOf smul
    simp only
    unfold Spec.dot at hs
    field_simp
    linarith

/-- **C286**: without direction or perspective a point is taken to the point of the plane that is straight above or below it. -/
theorem C286_orthogonal (p n v r : V3 ℝ) (hn : len n ≠ 0) (b : Bool) :
    Takes (projectionMatrix p n none none b) v r ↔ InPlane p n r ∧ ∃ t, r = add v (smul t n) := by
  obtain ⟨k, hu, -, hk, h1⟩ := unit_of n hn
  have hw : (homVec (projectionMatrix p n none none b) v).2 = 1 := by
    simp [homVec, projectionMatrix, vecDot]
  have hv : (homVec (projectionMatrix p n none none b) v).1
      = add v (smul (vecDot p k - vecDot v k) k) := by
    simp only [homVec, projectionMatrix, hu, vecDot, vecAdd, matVec, subM3, addM3, diag3, outer3, vecScale, add, smul, V3.mk.injEq]
    refine ⟨?_, ?_, ?_⟩ <;> ring
  unfold Takes
  rw [hw, hv]
  have key : ∀ t, InPlane p n (add v (smul t k)) ↔ t = vecDot p k - vecDot v k := by
    intro t
    unfold InPlane
    rw [hk]
    have e : Spec.dot (Spec.sub (add v (smul t k)) p) (smul (len n) k) = len n * (t - (vecDot p k - vecDot v k)) := by
      simp only [Spec.dot, Spec.sub, add, smul, vecDot]
      linear_combination (len n * t) * h1
    rw [e]
    constructor
    · intro h
      have := (mul_eq_zero.mp h).resolve_left hn
      linarith
    · intro h; rw [h]; ring
  have one : ∀ x : V3 ℝ, smul (1 / 1) x = x := by intro x; simp [smul]
  rw [one]
  constructor
  · rintro ⟨-, rfl⟩
    refine ⟨(key _).mpr rfl, (vecDot p k - vecDot v k) / len n, ?_⟩
    have e : smul ((vecDot p k - vecDot v k) / len n) n = smul ((vecDot p k - vecDot v k) / len n * len n) k := by
      generalize (vecDot p k - vecDot v k) / len n = q
      conv_lhs => rw [hk]
      simp only [smul, V3.mk.injEq]
      refine ⟨?_, ?_, ?_⟩ <;> ring
    rw [e, div_mul_cancel₀ _ hn]
  · rintro ⟨hp, t, rfl⟩
    refine ⟨one_ne_zero, ?_⟩
    have e : add v (smul t n) = add v (smul (t * len n) k) := by
      conv_lhs => rw [hk]
      simp only [add, smul, V3.mk.injEq]
      refine ⟨?_, ?_, ?_⟩ <;> ring
    rw [e] at hp ⊢
    rw [(key _).mp hp]

/-- **C286**: with a direction that is not in the plane a point is taken to the point of the plane that lies in this direction. -/
theorem C286_parallel (p n d v r : V3 ℝ) (hn : len n ≠ 0) (hd : Spec.dot d n ≠ 0) (b : Bool) :
    Takes (projectionMatrix p n (some d) none b) v r ↔ InPlane p n r ∧ ∃ t, r = add v (smul t d) := by
  obtain ⟨k, hu, -, hk, -⟩ := unit_of n hn
  have hw : (homVec (projectionMatrix p n (some d) none b) v).2 = 1 := by
    simp [homVec, projectionMatrix, vecDot]
  have hdk : Spec.dot d n = len n * vecDot d k := by
    conv_lhs => rw [hk]
    simp only [Spec.dot, smul, vecDot]; ring
  have hs : vecDot d k ≠ 0 := fun h => hd (by rw [hdk, h, mul_zero])
  have hv : (homVec (projectionMatrix p n (some d) none b) v).1
      = add v (smul ((vecDot p k - vecDot v k) / vecDot d k) d) := by
    simp only [homVec, projectionMatrix, hu]
    generalize vecDot d k = s
    simp only [vecDot, vecAdd, matVec, subM3, addM3, diag3, outer3, vecScale, add, smul, V3.mk.injEq]
    refine ⟨?_, ?_, ?_⟩ <;> ring
  unfold Takes
  rw [hw, hv]
  have key : ∀ t, InPlane p n (add v (smul t d)) ↔ t = (vecDot p k - vecDot v k) / vecDot d k := by
    intro t
    unfold InPlane
    have e : Spec.dot (Spec.sub (add v (smul t d)) p) n = len n * (t * vecDot d k - (vecDot p k - vecDot v k)) := by
      conv_lhs => rw [hk]
      simp only [Spec.dot, Spec.sub, add, smul, vecDot]
      ring
    rw [e, mul_eq_zero, or_iff_right hn, sub_eq_zero, eq_div_iff hs]
  have one : ∀ x : V3 ℝ, smul (1 / 1) x = x := by intro x; simp [smul]
  rw [one]
  constructor
  · rintro ⟨-, rfl⟩
    exact ⟨(key _).mpr rfl, _, rfl⟩
  · rintro ⟨hp, t, rfl⟩
    exact ⟨one_ne_zero, by rw [(key _).mp hp]⟩

/-- **C286**: with a perspective point outside the plane, a point that is not level with it is taken to the point of the plane on the line
through both. -/
theorem C286_perspective (p n e v r : V3 ℝ) (d : Option (V3 ℝ)) (hn : len n ≠ 0) (hv : Spec.dot (Spec.sub v e) n ≠ 0) :
    Takes (projectionMatrix p n d (some e) false) v r ↔ InPlane p n r ∧ ∃ t, r = add e (smul t (Spec.sub v e)) := by
  obtain ⟨k, hu, -, hk, -⟩ := unit_of n hn
  have hdk : Spec.dot (Spec.sub v e) n = len n * vecDot (Spec.sub v e) k := by
    conv_lhs => rw [hk]
    simp only [Spec.dot, smul, vecDot]; ring
  have hs : vecDot (Spec.sub v e) k ≠ 0 := fun h => hv (by rw [hdk, h, mul_zero])
  have hw : (homVec (projectionMatrix p n d (some e) false) v).2 = -vecDot (Spec.sub v e) k := by
    simp only [homVec, projectionMatrix, hu, vecDot, vecScale, Spec.sub, Bool.false_eq_true, if_false]; ring
  have hx : (homVec (projectionMatrix p n d (some e) false) v).1
      = smul (-vecDot (Spec.sub v e) k) (add e (smul (vecDot (Spec.sub p e) k / vecDot (Spec.sub v e) k) (Spec.sub v e))) := by
    have e1 : ∀ a : ℝ, vecDot (Spec.sub v e) k * (vecDot (Spec.sub p e) k / vecDot (Spec.sub v e) k * a) = vecDot (Spec.sub p e) k * a := by
      intro a; field_simp
    simp only [smul, add, mul_add, neg_mul, e1]
    simp only [homVec, projectionMatrix, hu, vecDot, vecAdd, matVec, subM3, addM3, diag3, outer3, vecScale, Spec.sub,
      Bool.false_eq_true, if_false, V3.mk.injEq]
    refine ⟨?_, ?_, ?_⟩ <;> ring
  unfold Takes
  rw [hw, hx]
  have key : ∀ t, InPlane p n (add e (smul t (Spec.sub v e))) ↔ t = vecDot (Spec.sub p e) k / vecDot (Spec.sub v e) k := by
    intro t
    unfold InPlane
    have h : Spec.dot (Spec.sub (add e (smul t (Spec.sub v e))) p) n
        = len n * (t * vecDot (Spec.sub v e) k - vecDot (Spec.sub p e) k) := by
      conv_lhs => rw [hk]
      simp only [Spec.dot, Spec.sub, add, smul, vecDot]
      ring
    rw [h, mul_eq_zero, or_iff_right hn, sub_eq_zero, eq_div_iff hs]
  have one : ∀ x : V3 ℝ, smul (1 / -vecDot (Spec.sub v e) k) (smul (-vecDot (Spec.sub v e) k) x) = x := by
    intro x
    cases x
    simp only [smul, V3.mk.injEq]
    refine ⟨?_, ?_, ?_⟩ <;> field_simp
  rw [one]
  constructor
  · rintro ⟨-, rfl⟩
    exact ⟨(key _).mpr rfl, _, rfl⟩
  · rintro ⟨hp, t, rfl⟩
    exact ⟨neg_ne_zero.mpr hs, by rw [(key _).mp hp]⟩

/-- **C286**: the projection that keeps relative depth, followed by the orthogonal projection, is the perspective projection. -/
theorem C286_pseudo (p n e : V3 ℝ) (d : Option (V3 ℝ)) (hn : len n ≠ 0) :
    homMul (projectionMatrix p n none none false) (projectionMatrix p n d (some e) true) = projectionMatrix p n d (some e) false := by
  obtain ⟨k, hu, -, -, h1⟩ := unit_of n hn
  simp only [projectionMatrix, hu, homMul, vecDot, vecAdd, subM3, addM3, diag3, outer3, vecScale, Bool.false_eq_true, if_false, if_true,
    Hom4.mk.injEq, V3.mk.injEq]
  exact ⟨⟨⟨by linear_combination k.x * k.x * h1, by linear_combination k.x * k.y * h1, by linear_combination k.x * k.z * h1⟩,
    ⟨by linear_combination k.y * k.x * h1, by linear_combination k.y * k.y * h1, by linear_combination k.y * k.z * h1⟩,
    ⟨by linear_combination k.z * k.x * h1, by linear_combination k.z * k.y * h1, by linear_combination k.z * k.z * h1⟩⟩,
    ⟨by linear_combination -(p.x * k.x + p.y * k.y + p.z * k.z) * k.x * h1, by linear_combination -(p.x * k.x + p.y * k.y + p.z * k.z) * k.y * h1, by linear_combination -(p.x * k.x + p.y * k.y + p.z * k.z) * k.z * h1⟩,
    ⟨by ring, by ring, by ring⟩, by ring⟩

/-- **C286**: scaling about a point, or about the origin if none is given, in all directions. -/
theorem C286_scale (f : ℝ) (o : Option (V3 ℝ)) (v : V3 ℝ) :
    Takes (scaleMatrix f o none) v (add (o.getD ⟨0, 0, 0⟩) (smul f (Spec.sub v (o.getD ⟨0, 0, 0⟩)))) := by
  cases o <;> simp [Takes, homVec, scaleMatrix, vecDot, diag3, matVec, vecAdd, vecScale, add, smul, Spec.sub]
  refine ⟨?_, ?_, ?_⟩ <;> ring

/-- **C286**: scaling in a direction only: what is across the direction stays as it is. -/
theorem C286_scale_along (f t : ℝ) (o : Option (V3 ℝ)) (d w : V3 ℝ) (hd : len d ≠ 0) (hw : Spec.dot w d = 0) :
    Takes (scaleMatrix f o (some d)) (add (o.getD ⟨0, 0, 0⟩) (add w (smul t d)))
      (add (o.getD ⟨0, 0, 0⟩) (add w (smul (f * t) d))) := by
  obtain ⟨k, hu, -, hk, h1⟩ := unit_of d hd
  have hw' : w.x * k.x + w.y * k.y + w.z * k.z = 0 := by
    rw [hk] at hw
    have : len d * (w.x * k.x + w.y * k.y + w.z * k.z) = 0 := by
      simp only [Spec.dot, smul] at hw
      linear_combination hw
    exact (mul_eq_zero.mp this).resolve_left hd
  have e : ∀ s, smul s d = smul (s * len d) k := by
    intro s
    conv_lhs => rw [hk]
    simp only [smul, V3.mk.injEq]
    refine ⟨?_, ?_, ?_⟩ <;> ring
  rw [e, e]
  generalize len d = L
  cases o with
  | none =>
    simp only [Takes, homVec, scaleMatrix, hu, vecDot, diag3, matVec, subM3, addM3, outer3, vecAdd, vecScale, add, smul, Option.getD_none,
      zero_mul, zero_add, add_zero, one_ne_zero, not_false_eq_true, ne_eq, true_and, div_one, one_mul, V3.mk.injEq]
    refine ⟨?_, ?_, ?_⟩
    · linear_combination (1 - f) * k.x * hw' + (1 - f) * t * L * k.x * h1
    · linear_combination (1 - f) * k.y * hw' + (1 - f) * t * L * k.y * h1
    · linear_combination (1 - f) * k.z * hw' + (1 - f) * t * L * k.z * h1
  | some o =>
    simp only [Takes, homVec, scaleMatrix, hu, vecDot, diag3, matVec, subM3, addM3, outer3, vecAdd, vecScale, add, smul, Option.getD_some,
      zero_mul, zero_add, add_zero, one_ne_zero, not_false_eq_true, ne_eq, true_and, div_one, one_mul, V3.mk.injEq]
    refine ⟨?_, ?_, ?_⟩
    · linear_combination (1 - f) * k.x * hw' + (1 - f) * t * L * k.x * h1
    · linear_combination (1 - f) * k.y * hw' + (1 - f) * t * L * k.y * h1
    · linear_combination (1 - f) * k.z * hw' + (1 - f) * t * L * k.z * h1

/-- **C286**: shear moves a point along the direction, by the tangent of the angle times its height above the plane. -/
theorem C286_shear (a : ℝ) (d p n v : V3 ℝ) (m : Hom4) (hd : len d ≠ 0) (hn : len n ≠ 0) (h : shearMatrix a d p n = .ok m) :
    Takes m v (add v (smul (Real.tan a * heightAbove p n v) (dirOf d))) := by
  obtain ⟨k, hu, -, hk, -⟩ := unit_of n hn
  obtain ⟨l, hu', hl, -, -⟩ := unit_of d hd
  have hh : heightAbove p n v = vecDot v k - vecDot p k := by
    unfold heightAbove
    have : Spec.dot (Spec.sub v p) n = (vecDot v k - vecDot p k) * len n := by
      conv_lhs => rw [hk]
      simp only [Spec.dot, Spec.sub, smul, vecDot]; ring
    rw [this]
    field_simp
  unfold shearMatrix at h
  simp only [hu, hu'] at h
  split at h
  · cases h
  · cases h
    rw [hh, hl]
    simp only [Takes, homVec, vecDot, diag3, matVec, addM3, outer3, vecAdd, vecScale, add, smul,
      zero_mul, zero_add, add_zero, one_ne_zero, not_false_eq_true, ne_eq, true_and, div_one, one_mul, V3.mk.injEq]
    refine ⟨?_, ?_, ?_⟩ <;> ring

/-- **C286**: if the direction lies in the plane the matrix is made. -/
theorem C286_shear_made (a : ℝ) (d p n : V3 ℝ) (hd : len d ≠ 0) (hn : len n ≠ 0) (h : Spec.dot d n = 0) :
    ∃ m, shearMatrix a d p n = .ok m := by
  obtain ⟨k, hu, -, hk, -⟩ := unit_of n hn
  obtain ⟨l, hu', -, hl, -⟩ := unit_of d hd
  have h0 : vecDot k l = 0 := by
    rw [hk, hl] at h
    have : len d * len n * vecDot k l = 0 := by
      simp only [Spec.dot, smul] at h
      simp only [vecDot]
      linear_combination h
    exact (mul_eq_zero.mp this).resolve_left (mul_ne_zero hd hn)
  unfold shearMatrix
  simp only [hu, hu', h0, abs_zero]
  rw [if_neg (by norm_num)]
  exact ⟨_, rfl⟩

/-- **C286** (partial): if the direction lies in the plane, points keep their height above it. Missing: directions that are nearly in the plane,
for which the matrix is made too. -/
theorem C286_shear_height_partial (a : ℝ) (d p n v r : V3 ℝ) (m : Hom4) (hd : len d ≠ 0) (hn : len n ≠ 0) (h0 : Spec.dot d n = 0)
    (h : shearMatrix a d p n = .ok m) (ht : Takes m v r) : heightAbove p n r = heightAbove p n v := by
  have h1 := C286_shear a d p n v m hd hn h
  have e : r = add v (smul (Real.tan a * heightAbove p n v) (dirOf d)) := ht.2.trans h1.2.symm
  rw [e]
  generalize Real.tan a * heightAbove p n v = s
  unfold heightAbove
  congr 1
  simp only [Spec.dot, Spec.sub, add, smul, dirOf] at h0 ⊢
  linear_combination (s * (1 / len d)) * h0

private theorem len_z (c : ℝ) (h : 0 ≤ c) : len ⟨0, 0, c⟩ = c := by
  simp only [len, Spec.dot, mul_zero, zero_add]
  exact Real.sqrt_mul_self h

/-- **C286** is false of shear: a direction a little out of the plane is accepted, and points then change their height. -/
theorem C286_shear_height_false : ¬ ShearKeepsHeights := by
  intro h
  have ln : len ⟨0, 0, 1⟩ = 1 := len_z 1 zero_le_one
  have ld : len ⟨99999999999999, 0, 20000000⟩ = 100000000000001 := by
    have e : Spec.dot ⟨99999999999999, 0, 20000000⟩ ⟨99999999999999, 0, 20000000⟩ = (100000000000001 : ℝ) * 100000000000001 := by
      norm_num [Spec.dot]
    rw [len, e, Real.sqrt_mul_self (by norm_num)]
  have hd : len ⟨99999999999999, 0, 20000000⟩ ≠ 0 := by rw [ld]; norm_num
  have hn : len ⟨0, 0, 1⟩ ≠ 0 := by rw [ln]; norm_num
  obtain ⟨m, hm⟩ : ∃ m, shearMatrix (π / 4) ⟨99999999999999, 0, 20000000⟩ ⟨0, 0, 0⟩ ⟨0, 0, 1⟩ = .ok m := by
    obtain ⟨k, hu, hk, -, -⟩ := unit_of _ hn
    obtain ⟨l, hu', hl, -, -⟩ := unit_of _ hd
    have e : vecDot k l = 20000000 / 100000000000001 := by
      rw [← hk, ← hl]
      simp only [dirOf, ln, ld, smul, vecDot]
      norm_num
    unfold shearMatrix
    simp only [hu, hu', e]
    rw [if_neg (by rw [abs_of_pos (by norm_num)]; norm_num)]
    exact ⟨_, rfl⟩
  have ht := C286_shear _ _ _ _ ⟨0, 0, 1⟩ m hd hn hm
  have := h _ _ _ _ _ _ m hd hn hm ht
  simp only [heightAbove, ln, ld, Spec.dot, Spec.sub, add, smul, dirOf, Real.tan_pi_div_four] at this
  norm_num at this

/-- A point above a plane, projected straight, in a direction, and from a point. -/
example : Takes (projectionMatrix ⟨0, 0, 1⟩ ⟨0, 0, 2⟩ none none false) ⟨5, 6, 7⟩ ⟨5, 6, 1⟩ ∧
    Takes (projectionMatrix ⟨0, 0, 1⟩ ⟨0, 0, 2⟩ (some ⟨1, 0, 1⟩) none false) ⟨5, 6, 7⟩ ⟨-1, 6, 1⟩ ∧
    Takes (projectionMatrix ⟨0, 0, 0⟩ ⟨0, 0, 2⟩ none (some ⟨0, 0, 10⟩) false) ⟨1, 0, 5⟩ ⟨2, 0, 0⟩ := by
  have hn : len ⟨0, 0, 2⟩ ≠ 0 := by rw [len_z 2 zero_le_two]; norm_num
  refine ⟨(C286_orthogonal _ _ _ _ hn _).mpr ⟨?_, -3, ?_⟩, (C286_parallel _ _ _ _ _ hn ?_ _).mpr ⟨?_, -6, ?_⟩,
    (C286_perspective _ _ _ _ _ _ hn ?_).mpr ⟨?_, 2, ?_⟩⟩ <;> norm_num [InPlane, Spec.dot, Spec.sub, add, smul]

/-- A shear whose direction lies in the plane. -/
example : ∃ m, shearMatrix (π / 4) ⟨0, 3, 0⟩ ⟨1, 2, 3⟩ ⟨0, 0, 2⟩ = .ok m := by
  refine C286_shear_made _ _ _ _ ?_ ?_ (by norm_num [Spec.dot])
  · have e : len ⟨0, 3, 0⟩ = 3 := by
      simp only [len, Spec.dot, mul_zero, zero_add, add_zero]
      exact Real.sqrt_mul_self (by norm_num)
    rw [e]; norm_num
  · rw [len_z 2 zero_le_two]; norm_num

end Oplab.Props
