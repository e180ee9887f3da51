import Verif.Spec.Transforms
import Mathlib.Tactic.LinearCombination
import Mathlib.Tactic.FieldSimp
import Mathlib.Tactic.Positivity

/-! # C281: rotations and quaternions -/

namespace Oplab.Props
open Oplab Spec Real

private theorem eps_pos : 0 < quatEps := by unfold quatEps; positivity

private theorem eps_one : quatEps ≤ 1 := by unfold quatEps; norm_num

/-- What the matrix of a quaternion does with a vector. -/
private theorem quat_apply (q : RosQuat) (h : quatEps ≤ q.sq) (v : V3 ℝ) : matVec (quatMatrix q) v =
    ⟨v.x + (-2 * (q.y ^ 2 + q.z ^ 2) * v.x + 2 * (q.x * q.y - q.z * q.w) * v.y + 2 * (q.x * q.z + q.y * q.w) * v.z) / q.sq,
      v.y + (2 * (q.x * q.y + q.z * q.w) * v.x - 2 * (q.x ^ 2 + q.z ^ 2) * v.y + 2 * (q.y * q.z - q.x * q.w) * v.z) / q.sq,
      v.z + (2 * (q.x * q.z - q.y * q.w) * v.x + 2 * (q.y * q.z + q.x * q.w) * v.y - 2 * (q.x ^ 2 + q.y ^ 2) * v.z) / q.sq⟩ := by
  have hp : 0 < q.sq := lt_of_lt_of_le eps_pos h
  have hk : √(2 / q.sq) * √(2 / q.sq) = 2 / q.sq := Real.mul_self_sqrt (by positivity)
  unfold quatMatrix matVec
  rw [if_neg (not_lt.mpr h)]
  simp only
  generalize √(2 / q.sq) = k at hk
  simp only [V3.mk.injEq]
  refine ⟨?_, ?_, ?_⟩
  · linear_combination ((-q.y ^ 2 - q.z ^ 2) * v.x + (q.x * q.y - q.z * q.w) * v.y + (q.x * q.z + q.y * q.w) * v.z) * hk
  · linear_combination ((q.x * q.y + q.z * q.w) * v.x + (-q.x ^ 2 - q.z ^ 2) * v.y + (q.y * q.z - q.x * q.w) * v.z) * hk
  · linear_combination ((q.x * q.z - q.y * q.w) * v.x + (q.y * q.z + q.x * q.w) * v.y + (-q.x ^ 2 - q.y ^ 2) * v.z) * hk

private theorem mul_sq (q1 q0 : RosQuat) : (quatMul q1 q0).sq = q1.sq * q0.sq := by
  unfold quatMul RosQuat.sq; ring

private theorem mul_apply (q1 q0 : RosQuat) (h1 : quatEps ≤ q1.sq) (h0 : quatEps ≤ q0.sq) (h : quatEps ≤ q1.sq * q0.sq) (v : V3 ℝ) :
    matVec (quatMatrix (quatMul q1 q0)) v = matVec (quatMatrix q1) (matVec (quatMatrix q0) v) := by
  have n1 : q1.sq ≠ 0 := (lt_of_lt_of_le eps_pos h1).ne'
  have n0 : q0.sq ≠ 0 := (lt_of_lt_of_le eps_pos h0).ne'
  rw [quat_apply (quatMul q1 q0) (by rw [mul_sq]; exact h), mul_sq, quat_apply q0 h0, quat_apply q1 h1]
  have e1 : q1.sq = q1.x * q1.x + q1.y * q1.y + q1.z * q1.z + q1.w * q1.w := rfl
  have e0 : q0.sq = q0.x * q0.x + q0.y * q0.y + q0.z * q0.z + q0.w * q0.w := rfl
  unfold quatMul
  simp only [V3.mk.injEq]
  refine ⟨?_, ?_, ?_⟩ <;> field_simp <;> rw [e1, e0] <;> ring

/-- **C281**, partial: the product of two quaternions turns by the second and then by the first, if neither they nor the product are shorter than
the length below which a quaternion is ignored. -/
theorem C281_product_partial (q1 q0 : RosQuat) (h1 : quatEps ≤ q1.sq) (h0 : quatEps ≤ q0.sq) (h : quatEps ≤ q1.sq * q0.sq) (v : V3 ℝ) :
    matVec (quatMatrix (quatMul q1 q0)) v = matVec (quatMatrix q1) (matVec (quatMatrix q0) v) := mul_apply q1 q0 h1 h0 h v

/-- **C281**: the product is that of Hamilton. -/
theorem C281_hamilton (q1 q0 : RosQuat) :
    hamilton (quatMul q1 q0).x (quatMul q1 q0).y (quatMul q1 q0).z (quatMul q1 q0).w =
      hamilton q1.x q1.y q1.z q1.w * hamilton q0.x q0.y q0.z q0.w := by
  apply Quaternion.ext
  · rw [Quaternion.re_mul]; simp only [hamilton, quatMul]; ring
  · rw [Quaternion.imI_mul]; simp only [hamilton, quatMul]; ring
  · rw [Quaternion.imJ_mul]; simp only [hamilton, quatMul]; ring
  · rw [Quaternion.imK_mul]; simp only [hamilton, quatMul]; ring

/-- **C281**: the inverse of a quaternion that is not zero is its inverse from both sides. -/
theorem C281_inverse (q : RosQuat) (h : q.sq ≠ 0) :
    quatMul q (quatInv q) = ⟨0, 0, 0, 1⟩ ∧ quatMul (quatInv q) q = ⟨0, 0, 0, 1⟩ := by
  have e : q.sq = q.x * q.x + q.y * q.y + q.z * q.z + q.w * q.w := rfl
  unfold quatMul quatInv quatConj
  simp only [RosQuat.mk.injEq]
  refine ⟨⟨?_, ?_, ?_, ?_⟩, ?_, ?_, ?_, ?_⟩ <;> field_simp <;> first | ring1 | (rw [e]; ring1)

/-- An elementary quaternion. -/
private noncomputable def axisQuat (c : Char) (a : ℝ) : RosQuat :=
  if c = 'x' then ⟨sin (a / 2), 0, 0, cos (a / 2)⟩ else if c = 'y' then ⟨0, sin (a / 2), 0, cos (a / 2)⟩ else ⟨0, 0, sin (a / 2), cos (a / 2)⟩

private theorem axisQuat_sq (c : Char) (a : ℝ) : (axisQuat c a).sq = 1 := by
  have h := sin_sq_add_cos_sq (a / 2)
  unfold axisQuat RosQuat.sq
  split
  · simp only; linear_combination h
  · split
    · simp only; linear_combination h
    · simp only; linear_combination h

private theorem axisQuat_apply (c : Char) (a : ℝ) (v : V3 ℝ) : matVec (quatMatrix (axisQuat c a)) v = turnAbout c a v := by
  have h := sin_sq_add_cos_sq (a / 2)
  have hs : sin a = 2 * sin (a / 2) * cos (a / 2) := by rw [← sin_two_mul]; congr 1; ring
  have hc : cos a = 2 * cos (a / 2) ^ 2 - 1 := by rw [← cos_two_mul]; congr 1; ring
  rw [quat_apply _ (by rw [axisQuat_sq]; exact eps_one), axisQuat_sq]
  unfold axisQuat turnAbout
  split
  · unfold rotX
    rw [hs, hc]
    simp only [V3.mk.injEq]
    refine ⟨?_, ?_, ?_⟩
    · ring
    · linear_combination (-2 * v.y) * h
    · linear_combination (-2 * v.z) * h
  · split
    · unfold rotY
      rw [hs, hc]
      simp only [V3.mk.injEq]
      refine ⟨?_, ?_, ?_⟩
      · linear_combination (-2 * v.x) * h
      · ring
      · linear_combination (-2 * v.z) * h
    · unfold rotZ
      rw [hs, hc]
      simp only [V3.mk.injEq]
      refine ⟨?_, ?_, ?_⟩
      · linear_combination (-2 * v.x) * h
      · linear_combination (-2 * v.y) * h
      · ring

private theorem mul_one_sq {p q : RosQuat} (hp : p.sq = 1) (hq : q.sq = 1) : (quatMul p q).sq = 1 := by rw [mul_sq, hp, hq, one_mul]

private theorem three (p q r : Char) (a b c : ℝ) (v : V3 ℝ) :
    matVec (quatMatrix (quatMul (axisQuat p a) (quatMul (axisQuat q b) (axisQuat r c)))) v = turnAbout p a (turnAbout q b (turnAbout r c v)) := by
  have one : ∀ {x : RosQuat}, x.sq = 1 → quatEps ≤ x.sq := fun h => by rw [h]; exact eps_one
  have hq := mul_one_sq (axisQuat_sq q b) (axisQuat_sq r c)
  rw [mul_apply _ _ (one (axisQuat_sq p a)) (one hq) (by rw [axisQuat_sq, hq, one_mul]; exact eps_one),
    mul_apply _ _ (one (axisQuat_sq q b)) (one (axisQuat_sq r c)) (by rw [axisQuat_sq, axisQuat_sq, one_mul]; exact eps_one),
    axisQuat_apply, axisQuat_apply, axisQuat_apply]

private theorem half_neg (b : ℝ) : cos (-b / 2) = cos (b / 2) ∧ sin (-b / 2) = -sin (b / 2) := by
  rw [neg_div, cos_neg, sin_neg]; exact ⟨rfl, rfl⟩

/-- **C281**: the matrix for three angles turns about the axes that the name tells, in the order that it tells, for all 24 names. -/
theorem C281_euler (axes : List Char) (h : AxesName axes) (a b c : ℝ) :
    ∃ m, eulerMatrix axes a b c = .ok m ∧ ∀ v, matVec m v = namedTurn axes a b c v := by
  obtain ⟨f, p, q, r, rfl, hf, hp, hq, hr, hpq, hqr⟩ := h
  rcases hf with rfl | rfl <;> rcases hp with rfl | rfl | rfl <;> rcases hq with rfl | rfl | rfl <;>
    first
    | exact absurd rfl hpq
    | (rcases hr with rfl | rfl | rfl <;>
        first
        | exact absurd rfl hqr
        | (refine ⟨_, rfl, fun v => ?_⟩
           simp [eulerMatrixOf, matVec, namedTurn, turnAbout, rotX, rotY, rotZ, put3, AxisSeq.second, nextAxis]
           try (refine ⟨?_, ?_, ?_⟩ <;> ring)))

/-- **C281**: the quaternion for three angles turns in the same way, and has the length 1. -/
theorem C281_quaternion (axes : List Char) (h : AxesName axes) (a b c : ℝ) :
    ∃ q, quaternionFromEuler axes a b c = .ok q ∧ q.sq = 1 ∧ ∀ v, matVec (quatMatrix q) v = namedTurn axes a b c v := by
  have main : ∃ q, quaternionFromEuler axes a b c = .ok q ∧ ∃ p' q' r' a' b' c',
      q = quatMul (axisQuat p' a') (quatMul (axisQuat q' b') (axisQuat r' c')) ∧
      ∀ v, namedTurn axes a b c v = turnAbout p' a' (turnAbout q' b' (turnAbout r' c' v)) := by
    obtain ⟨f, p, q, r, rfl, hf, hp, hq, hr, hpq, hqr⟩ := h
    rcases hf with rfl | rfl
    · refine ⟨_, ?_, r, q, p, c, b, a, rfl, fun v => by simp [namedTurn]⟩
      rcases hp with rfl | rfl | rfl <;> rcases hq with rfl | rfl | rfl <;>
        first
        | exact absurd rfl hpq
        | (rcases hr with rfl | rfl | rfl <;>
            first
            | exact absurd rfl hqr
            | (refine Eq.trans (congrArg Except.ok (?_ : quaternionOf _ a b c = _)) rfl
               simp [quaternionOf, quatMul, axisQuat, put3, AxisSeq.second, nextAxis, (half_neg b).1, (half_neg b).2]
               try (refine ⟨?_, ?_, ?_, ?_⟩ <;> ring)))
    · refine ⟨_, ?_, p, q, r, a, b, c, rfl, fun v => by simp [namedTurn]⟩
      rcases hp with rfl | rfl | rfl <;> rcases hq with rfl | rfl | rfl <;>
        first
        | exact absurd rfl hpq
        | (rcases hr with rfl | rfl | rfl <;>
            first
            | exact absurd rfl hqr
            | (refine Eq.trans (congrArg Except.ok (?_ : quaternionOf _ a b c = _)) rfl
               simp [quaternionOf, quatMul, axisQuat, put3, AxisSeq.second, nextAxis, (half_neg b).1, (half_neg b).2]
               try (refine ⟨?_, ?_, ?_, ?_⟩ <;> ring)))
  obtain ⟨q, hq, p', q', r', a', b', c', rfl, ht⟩ := main
  refine ⟨_, hq, ?_, fun v => by rw [three, ht]⟩
  exact mul_one_sq (axisQuat_sq _ _) (mul_one_sq (axisQuat_sq _ _) (axisQuat_sq _ _))

private theorem mem_of_lookup {A B : Type} [BEq A] [LawfulBEq A] {k : A} {v : B} : ∀ {l : List (A × B)}, l.lookup k = some v → (k, v) ∈ l
  | [], h => by cases h
  | (a, b) :: l, h => by
    rw [List.lookup_cons] at h
    split at h
    · rename_i e
      cases h
      rw [eq_of_beq e]
      exact List.mem_cons_self
    · exact List.mem_cons_of_mem _ (mem_of_lookup h)

/-- **C281**: the matrix is given for exactly the 24 names. -/
theorem C281_names (axes : List Char) (a b c : ℝ) : (∃ m, eulerMatrix axes a b c = .ok m) ↔ AxesName axes := by
  constructor
  · rintro ⟨m, h⟩
    unfold eulerMatrix axesOf at h
    cases ht : axesTable.lookup axes with
    | none => rw [ht] at h; cases h
    | some t =>
      have hm := mem_of_lookup ht
      simp only [axesTable, List.mem_cons, List.not_mem_nil, or_false, Prod.mk.injEq] at hm
      rcases hm with h | h | h | h | h | h | h | h | h | h | h | h | h | h | h | h | h | h | h | h | h | h | h | h <;>
        exact ⟨_, _, _, _, h.1, by decide, by decide, by decide, by decide, by decide, by decide⟩
  · intro h
    obtain ⟨m, hm, _⟩ := C281_euler axes h a b c
    exact ⟨m, hm⟩

/-- **C281** is false: capital letters are taken by `quaternion_from_euler` only. -/
theorem C281_names_false : ¬ SameNames := by
  intro h
  have h1 := (h ['S', 'X', 'Y', 'Z'] 0 0 0).2 ⟨_, rfl⟩
  obtain ⟨f, p, q, r, e, hf, _⟩ := (C281_names _ 0 0 0).1 h1
  cases e
  revert hf
  decide

/-- **C281** is false: the product of two short quaternions, each of which gives a rotation, gives none. -/
theorem C281_product_false : ¬ ProductTurns := by
  intro h
  have e : quatEps = (1 / 2) ^ 50 := by unfold quatEps; norm_num
  have h1 : (⟨(1 / 2) ^ 20, 0, 0, 0⟩ : RosQuat).sq = (1 / 2) ^ 40 := by unfold RosQuat.sq; norm_num
  have h0 : (⟨0, (1 / 2) ^ 20, 0, 0⟩ : RosQuat).sq = (1 / 2) ^ 40 := by unfold RosQuat.sq; norm_num
  have l1 : quatEps ≤ (⟨(1 / 2) ^ 20, 0, 0, 0⟩ : RosQuat).sq := by rw [h1, e]; norm_num
  have l0 : quatEps ≤ (⟨0, (1 / 2) ^ 20, 0, 0⟩ : RosQuat).sq := by rw [h0, e]; norm_num
  have := h _ _ l1 l0 ⟨1, 0, 0⟩
  rw [quat_apply _ l1, quat_apply _ l0, h1, h0] at this
  have hs : (quatMul ⟨(1 / 2) ^ 20, 0, 0, 0⟩ ⟨0, (1 / 2) ^ 20, 0, 0⟩).sq < quatEps := by
    rw [mul_sq, h1, h0, e]; norm_num
  unfold quatMatrix matVec at this
  rw [if_pos hs] at this
  have hx := congrArg V3.x this
  norm_num at hx

private theorem unit_dir (d : V3 ℝ) : unitVec d = dirOf d := by
  unfold unitVec dirOf vecNorm len smul Spec.dot
  simp only [V3.mk.injEq]
  refine ⟨?_, ?_, ?_⟩ <;> ring

/-- **C281**: a rotation about an axis through the origin or through a point, counterclockwise seen from the tip of the direction. -/
theorem C281_axis (t : ℝ) (d p v : V3 ℝ) :
    rotationMatrix t d none v = rotateAbout (dirOf d) t v ∧
      rotationMatrix t d (some p) v = add p (rotateAbout (dirOf d) t (Spec.sub v p)) := by
  unfold rotationMatrix axisMatrix matVec
  rw [unit_dir]
  generalize dirOf d = k
  unfold rotateAbout add smul cross Spec.dot Spec.sub
  simp only [V3.mk.injEq]
  refine ⟨⟨?_, ?_, ?_⟩, ?_, ?_, ?_⟩ <;> ring

/-- **C281**, partial: the quaternion about an axis turns about it, if the axis is not shorter than the smallest length. -/
theorem C281_axis_quaternion_partial (t : ℝ) (d v : V3 ℝ) (h : quatEps < len d) :
    matVec (quatMatrix (quatAboutAxis t d)) v = rotateAbout (dirOf d) t v := by
  have hl : vecNorm d = len d := rfl
  have h0 : len d ≠ 0 := (lt_trans eps_pos h).ne'
  have hk : (dirOf d).x ^ 2 + (dirOf d).y ^ 2 + (dirOf d).z ^ 2 = 1 := by
    have hs : len d * len d = Spec.dot d d := Real.mul_self_sqrt (by unfold Spec.dot; nlinarith [mul_self_nonneg d.x, mul_self_nonneg d.y, mul_self_nonneg d.z])
    unfold dirOf smul
    simp only
    unfold Spec.dot at hs
    field_simp
    linarith
  have hq : quatAboutAxis t d = ⟨(dirOf d).x * sin (t / 2), (dirOf d).y * sin (t / 2), (dirOf d).z * sin (t / 2), cos (t / 2)⟩ := by
    unfold quatAboutAxis
    rw [hl, if_pos h]
    unfold dirOf smul
    simp only [RosQuat.mk.injEq]
    refine ⟨?_, ?_, ?_, trivial⟩ <;> ring
  have hsc := sin_sq_add_cos_sq (t / 2)
  have hsin : sin t = 2 * sin (t / 2) * cos (t / 2) := by rw [← sin_two_mul]; congr 1; ring
  have hcos : cos t = 1 - 2 * sin (t / 2) ^ 2 := by
    have : cos t = 2 * cos (t / 2) ^ 2 - 1 := by rw [← cos_two_mul]; congr 1; ring
    linarith
  have h1 : (quatAboutAxis t d).sq = 1 := by
    rw [hq]
    unfold RosQuat.sq
    simp only
    linear_combination (sin (t / 2) ^ 2) * hk + hsc
  rw [quat_apply _ (by rw [h1]; exact eps_one), h1, hq]
  unfold rotateAbout
  rw [hsin, hcos]
  generalize dirOf d = k at hk ⊢
  unfold add smul cross Spec.dot
  simp only [V3.mk.injEq]
  refine ⟨?_, ?_, ?_⟩
  · linear_combination (2 * sin (t / 2) ^ 2 * v.x) * (-hk)
  · linear_combination (2 * sin (t / 2) ^ 2 * v.y) * (-hk)
  · linear_combination (2 * sin (t / 2) ^ 2 * v.z) * (-hk)

/-- **C281** is false: half a turn about an axis with a very short vector is none. -/
theorem C281_axis_quaternion_false : ¬ AxisTurns := by
  intro h
  have hp := eps_pos
  have hl : len ⟨quatEps, 0, 0⟩ = quatEps := by
    unfold len Spec.dot
    simp only [mul_zero, add_zero]
    exact Real.sqrt_mul_self hp.le
  have := h π ⟨quatEps, 0, 0⟩ ⟨0, 1, 0⟩ (by rw [hl]; exact hp.ne')
  have hq : quatAboutAxis π ⟨quatEps, 0, 0⟩ = ⟨quatEps, 0, 0, 0⟩ := by
    unfold quatAboutAxis
    have hl' : vecNorm ⟨quatEps, 0, 0⟩ = quatEps := hl
    rw [hl', if_neg (lt_irrefl _), cos_pi_div_two]
  have hs : (⟨quatEps, 0, 0, 0⟩ : RosQuat).sq < quatEps := by
    unfold RosQuat.sq quatEps; norm_num
  rw [hq] at this
  unfold quatMatrix matVec at this
  rw [if_pos hs] at this
  have hy := congrArg V3.y this
  unfold rotateAbout dirOf add smul cross Spec.dot at hy
  simp only [sin_pi, cos_pi] at hy
  norm_num at hy

/-- **C281**: a mirror leaves the points of its plane, exchanges the sides, and gives every point back if used twice. -/
theorem C281_mirror (p n v : V3 ℝ) (h : len n ≠ 0) :
    (Spec.dot (Spec.sub v p) n = 0 → reflectionMatrix p n v = v) ∧
      (∀ t, Spec.dot (Spec.sub v p) n = 0 → reflectionMatrix p n (add v (smul t n)) = Spec.sub v (smul t n)) ∧
      reflectionMatrix p n (reflectionMatrix p n v) = v := by
  have hk : (dirOf n).x ^ 2 + (dirOf n).y ^ 2 + (dirOf n).z ^ 2 = 1 := by
    have hs : len n * len n = Spec.dot n n := Real.mul_self_sqrt (by unfold Spec.dot; nlinarith [mul_self_nonneg n.x, mul_self_nonneg n.y, mul_self_nonneg n.z])
    unfold dirOf smul
    simp only
    unfold Spec.dot at hs
    field_simp
    linarith
  have hn : n = smul (len n) (dirOf n) := by
    unfold dirOf smul
    cases n
    simp only [V3.mk.injEq]
    refine ⟨?_, ?_, ?_⟩ <;> field_simp
  have second : ∀ t, Spec.dot (Spec.sub v p) n = 0 → reflectionMatrix p n (add v (smul t n)) = Spec.sub v (smul t n) := by
    intro t hd
    have hd' : (v.x - p.x) * (dirOf n).x + (v.y - p.y) * (dirOf n).y + (v.z - p.z) * (dirOf n).z = 0 := by
      unfold Spec.dot Spec.sub at hd
      unfold dirOf smul
      simp only at hd ⊢
      have : (v.x - p.x) * (1 / len n * n.x) + (v.y - p.y) * (1 / len n * n.y) + (v.z - p.z) * (1 / len n * n.z) =
        1 / len n * ((v.x - p.x) * n.x + (v.y - p.y) * n.y + (v.z - p.z) * n.z) := by ring
      rw [this, hd, mul_zero]
    unfold reflectionMatrix
    rw [unit_dir, hn]
    have hdd : dirOf (smul (len n) (dirOf n)) = dirOf n := by rw [← hn]
    rw [hdd]
    generalize dirOf n = k at hk hd' ⊢
    generalize len n = l
    unfold add Spec.sub smul
    simp only [V3.mk.injEq]
    refine ⟨?_, ?_, ?_⟩
    · linear_combination (-2 * k.x) * hd' + (-2 * t * l * k.x) * hk
    · linear_combination (-2 * k.y) * hd' + (-2 * t * l * k.y) * hk
    · linear_combination (-2 * k.z) * hd' + (-2 * t * l * k.z) * hk
  refine ⟨fun hd => ?_, second, ?_⟩
  · have := second 0 hd
    simpa [add, Spec.sub, smul] using this
  · unfold reflectionMatrix
    rw [unit_dir]
    generalize dirOf n = k at hk ⊢
    cases v with
    | mk x y z =>
    simp only [V3.mk.injEq]
    have e : ∀ m : ℝ, m * (k.x ^ 2 + k.y ^ 2 + k.z ^ 2) = m := fun m => by rw [hk, mul_one]
    refine ⟨?_, ?_, ?_⟩
    · linear_combination (4 * k.x * (x * k.x + y * k.y + z * k.z - (p.x * k.x + p.y * k.y + p.z * k.z))) * hk
    · linear_combination (4 * k.y * (x * k.x + y * k.y + z * k.z - (p.x * k.x + p.y * k.y + p.z * k.z))) * hk
    · linear_combination (4 * k.z * (x * k.x + y * k.y + z * k.z - (p.x * k.x + p.y * k.y + p.z * k.z))) * hk

/-! ### Interpolation -/

private theorem unit_sq (q : RosQuat) (h : q.sq ≠ 0) : (unitQuat q).sq = 1 := by
  have hp : 0 ≤ q.sq := by unfold RosQuat.sq; nlinarith [mul_self_nonneg q.x, mul_self_nonneg q.y, mul_self_nonneg q.z, mul_self_nonneg q.w]
  have hs : √q.sq * √q.sq = q.sq := Real.mul_self_sqrt hp
  have h0 : √q.sq ≠ 0 := fun e => h (by rw [← hs, e, mul_zero])
  have e : (unitQuat q).sq = q.sq / (√q.sq * √q.sq) := by
    unfold unitQuat quatScale RosQuat.sq
    simp only
    field_simp
  rw [e, hs, div_self h]

private theorem unit_dot (p q : RosQuat) : quatDot (unitQuat p) (unitQuat q) = quatCos p q := by
  unfold quatDot unitQuat quatScale quatCos
  simp only
  ring

private theorem dot_le (p q : RosQuat) (hp : p.sq = 1) (hq : q.sq = 1) : |quatDot p q| ≤ 1 := by
  rw [abs_le]
  unfold RosQuat.sq at hp hq
  unfold quatDot
  constructor
  · nlinarith [sq_nonneg (p.x + q.x), sq_nonneg (p.y + q.y), sq_nonneg (p.z + q.z), sq_nonneg (p.w + q.w)]
  · nlinarith [sq_nonneg (p.x - q.x), sq_nonneg (p.y - q.y), sq_nonneg (p.z - q.z), sq_nonneg (p.w - q.w)]

/-- The main step, for unit quaternions with the angle `w` between them. -/
private theorem slerp_step (p q : RosQuat) (w f : ℝ) (hp : p.sq = 1) (hq : q.sq = 1) (hd : quatDot p q = cos w) (hs : sin w ≠ 0) :
    let a := quatScale (sin ((1 - f) * w) * (1 / sin w)) p
    let b := quatScale (sin (f * w) * (1 / sin w)) q
    let r : RosQuat := ⟨a.x + b.x, a.y + b.y, a.z + b.z, a.w + b.w⟩
    r.sq = 1 ∧ quatDot p r = cos (f * w) := by
  have hA : sin ((1 - f) * w) = sin w * cos (f * w) - cos w * sin (f * w) := by rw [← sin_sub]; congr 1; ring
  have h1 := sin_sq_add_cos_sq (f * w)
  have h2 := sin_sq_add_cos_sq w
  rw [hA]
  generalize sin (f * w) = S at *
  generalize cos (f * w) = T at *
  generalize sin w = s at *
  generalize cos w = c at *
  have e : ∀ a b : ℝ, (⟨(quatScale a p).x + (quatScale b q).x, (quatScale a p).y + (quatScale b q).y, (quatScale a p).z + (quatScale b q).z,
      (quatScale a p).w + (quatScale b q).w⟩ : RosQuat).sq = a ^ 2 * p.sq + b ^ 2 * q.sq + 2 * a * b * quatDot p q ∧
      quatDot p ⟨(quatScale a p).x + (quatScale b q).x, (quatScale a p).y + (quatScale b q).y, (quatScale a p).z + (quatScale b q).z,
      (quatScale a p).w + (quatScale b q).w⟩ = a * p.sq + b * quatDot p q := by
    intro a b
    unfold quatScale RosQuat.sq quatDot
    simp only
    constructor <;> ring
  dsimp only
  rw [(e _ _).1, (e _ _).2, hp, hq, hd]
  constructor
  · field_simp
    linear_combination s ^ 2 * h1 - S ^ 2 * h2
  · field_simp
    ring

private theorem scale_neg_sq (q : RosQuat) : (quatScale (-1) q).sq = q.sq := by unfold quatScale RosQuat.sq; ring

private theorem scale_neg_dot (p q : RosQuat) : quatDot p (quatScale (-1) q) = -quatDot p q := by unfold quatScale quatDot; ring

/-- The quaternion at `f` of the way, away from the ends and if the two are not nearly parallel. -/
private theorem slerp_between (q0 q1 : RosQuat) (f : ℝ) (short : Bool) (h0 : q0.sq ≠ 0) (h1 : q1.sq ≠ 0) (f0 : f ≠ 0) (f1 : f ≠ 1)
    (hd : ¬ |(|quatCos q0 q1|) - 1| < quatEps) :
    (|arccos (if short = true then |quatCos q0 q1| else quatCos q0 q1)| < quatEps ∧ quatSlerp q0 q1 f 0 short = unitQuat q0) ∨
    ((quatSlerp q0 q1 f 0 short).sq = 1 ∧ quatDot (unitQuat q0) (quatSlerp q0 q1 f 0 short) =
      cos (f * arccos (if short = true then |quatCos q0 q1| else quatCos q0 q1))) := by
  have u0 := unit_sq q0 h0
  have u1 := unit_sq q1 h1
  have hle := dot_le _ _ u0 u1
  rw [unit_dot] at hle
  have hne : |quatCos q0 q1| ≠ 1 := by
    intro e
    apply hd
    rw [e, sub_self, abs_zero]
    exact eps_pos
  have hlt : |quatCos q0 q1| < 1 := lt_of_le_of_ne hle hne
  rw [abs_lt] at hlt
  unfold quatSlerp
  rw [if_neg f0, if_neg f1]
  dsimp only
  rw [unit_dot, if_neg hd]
  simp only [Int.cast_zero, zero_mul, add_zero]
  by_cases hf : short = true ∧ quatCos q0 q1 < 0
  · rw [if_pos hf, if_pos hf]
    have e : (if short = true then |quatCos q0 q1| else quatCos q0 q1) = -quatCos q0 q1 := by
      rw [if_pos hf.1, abs_of_neg hf.2]
    rw [e]
    split
    · rename_i hlt; exact Or.inl ⟨hlt, rfl⟩
    · right
      have hs : sin (arccos (-quatCos q0 q1)) ≠ 0 := by
        rw [sin_arccos]
        exact (Real.sqrt_pos.mpr (by nlinarith)).ne'
      exact slerp_step (unitQuat q0) (quatScale (-1) (unitQuat q1)) (arccos (-quatCos q0 q1)) f u0 (by rw [scale_neg_sq]; exact u1)
        (by rw [scale_neg_dot, unit_dot, cos_arccos (by linarith) (by linarith)]) hs
  · rw [if_neg hf, if_neg hf]
    have e : (if short = true then |quatCos q0 q1| else quatCos q0 q1) = quatCos q0 q1 := by
      split
      · rename_i hsh
        exact abs_of_nonneg (not_lt.mp fun hn => hf ⟨hsh, hn⟩)
      · rfl
    rw [e]
    split
    · rename_i hlt; exact Or.inl ⟨hlt, rfl⟩
    · right
      have hs : sin (arccos (quatCos q0 q1)) ≠ 0 := by
        rw [sin_arccos]
        exact (Real.sqrt_pos.mpr (by nlinarith)).ne'
      exact slerp_step (unitQuat q0) (unitQuat q1) (arccos (quatCos q0 q1)) f u0 u1
        (by rw [unit_dot, cos_arccos (by linarith) (by linarith)]) hs

/-- **C281**: interpolation without spin gives a quaternion of the length 1. -/
theorem C281_slerp_unit : SlerpUnit 0 := by
  intro q0 q1 f short h0 h1
  by_cases f0 : f = 0
  · unfold quatSlerp; rw [if_pos f0]; exact unit_sq q0 h0
  by_cases f1 : f = 1
  · unfold quatSlerp; rw [if_neg f0, if_pos f1]; exact unit_sq q1 h1
  by_cases hd : |(|quatCos q0 q1|) - 1| < quatEps
  · unfold quatSlerp
    rw [if_neg f0, if_neg f1]
    dsimp only
    rw [unit_dot, if_pos hd]
    exact unit_sq q0 h0
  rcases slerp_between q0 q1 f short h0 h1 f0 f1 hd with h | h
  · rw [h.2]; exact unit_sq q0 h0
  · exact h.1

/-- **C281**: interpolation starts at the first quaternion, ends at the second, and between the two the angle from the first grows in
proportion, to that between the two (or between the first and the opposite of the second, which is the same rotation, if that is smaller and the
shortest path is asked for). Quaternions that are nearly parallel, or nearly opposite, are left out. -/
theorem C281_slerp (q0 q1 : RosQuat) (f : ℝ) (short : Bool) (h0 : q0.sq ≠ 0) (h1 : q1.sq ≠ 0) (hd : quatEps ≤ 1 - |quatCos q0 q1|)
    (ha : quatEps ≤ arccos |quatCos q0 q1|) :
    quatSlerp q0 q1 0 0 short = unitQuat q0 ∧ quatSlerp q0 q1 1 0 short = unitQuat q1 ∧
      (f ≠ 0 → f ≠ 1 → quatCos q0 (quatSlerp q0 q1 f 0 short) = cos (f * arccos (if short = true then |quatCos q0 q1| else quatCos q0 q1))) := by
  refine ⟨by unfold quatSlerp; rw [if_pos rfl], by unfold quatSlerp; rw [if_neg one_ne_zero, if_pos rfl], fun f0 f1 => ?_⟩
  have hd' : ¬ |(|quatCos q0 q1|) - 1| < quatEps := by
    rw [not_lt]
    refine le_trans hd ?_
    rw [abs_sub_comm]
    exact le_abs_self _
  have key : quatDot (unitQuat q0) (quatSlerp q0 q1 f 0 short) = quatCos q0 (quatSlerp q0 q1 f 0 short) := by
    have := C281_slerp_unit q0 q1 f short h0 h1
    unfold quatCos
    rw [this, Real.sqrt_one, mul_one]
    unfold quatDot unitQuat quatScale
    simp only
    ring
  rw [← key]
  rcases slerp_between q0 q1 f short h0 h1 f0 f1 hd' with h | h
  · exfalso
    have h' := h.1
    rw [abs_of_nonneg (arccos_nonneg _)] at h'
    have hx : (if short = true then |quatCos q0 q1| else quatCos q0 q1) ≤ |quatCos q0 q1| := by
      split
      · exact le_refl _
      · exact le_abs_self _
    exact absurd (lt_of_le_of_lt (le_trans ha (arccos_le_arccos hx)) h') (lt_irrefl _)
  · exact h.2

/-- **C281** is false with spin: the quaternion half way has the length √3. -/
theorem C281_slerp_spin_false : ¬ SlerpUnit 1 := by
  intro h
  have s3 : (√3 : ℝ) * √3 = 3 := Real.mul_self_sqrt (by norm_num)
  have e0 : (⟨0, 0, 0, 1⟩ : RosQuat).sq = 1 := by unfold RosQuat.sq; norm_num
  have e1 : (⟨√3 / 2, 0, 0, 1 / 2⟩ : RosQuat).sq = 1 := by unfold RosQuat.sq; simp only; linarith
  have u0 : unitQuat ⟨0, 0, 0, 1⟩ = ⟨0, 0, 0, 1⟩ := by unfold unitQuat quatScale; rw [e0, Real.sqrt_one]; norm_num
  have u1 : unitQuat ⟨√3 / 2, 0, 0, 1 / 2⟩ = ⟨√3 / 2, 0, 0, 1 / 2⟩ := by unfold unitQuat quatScale; rw [e1, Real.sqrt_one]; norm_num
  have ha : arccos (1 / 2) = π / 3 := by
    rw [← cos_pi_div_three, arccos_cos (by positivity) (by linarith [pi_pos])]
  have := h ⟨0, 0, 0, 1⟩ ⟨√3 / 2, 0, 0, 1 / 2⟩ (1 / 2) true (by rw [e0]; exact one_ne_zero) (by rw [e1]; exact one_ne_zero)
  unfold quatSlerp at this
  rw [if_neg (by norm_num), if_neg (by norm_num), u0, u1] at this
  dsimp only at this
  have hd : quatDot ⟨0, 0, 0, 1⟩ ⟨√3 / 2, 0, 0, 1 / 2⟩ = 1 / 2 := by unfold quatDot; norm_num
  have he : quatEps ≤ 1 / 2 := by unfold quatEps; norm_num
  rw [hd, if_neg (by rw [abs_of_pos (by norm_num : (0 : ℝ) < 1 / 2)]; norm_num; linarith)] at this
  have hnf : ¬ ((1 / 2 : ℝ) < 0) := by norm_num
  simp only [hnf, and_false, if_false] at this
  rw [ha] at this
  have hang : π / 3 + ((1 : ℤ) : ℝ) * π = π / 3 + π := by push_cast; ring
  rw [hang, if_neg (by rw [abs_of_pos (by positivity)]; linarith [two_le_pi])] at this
  have k1 : sin ((1 - 1 / 2) * (π / 3 + π)) = √3 / 2 := by
    rw [show (1 - 1 / 2) * (π / 3 + π) = π - π / 3 by ring, sin_pi_sub, sin_pi_div_three]
  have k2 : sin (1 / 2 * (π / 3 + π)) = √3 / 2 := by
    rw [show 1 / 2 * (π / 3 + π) = π - π / 3 by ring, sin_pi_sub, sin_pi_div_three]
  have k3 : sin (π / 3 + π) = -(√3 / 2) := by rw [sin_add_pi, sin_pi_div_three]
  rw [k1, k2, k3] at this
  have hn : √3 ≠ 0 := fun e => by rw [e] at s3; norm_num at s3
  have hm : √3 / 2 * (1 / -(√3 / 2)) = -1 := by field_simp
  rw [hm] at this
  unfold quatScale RosQuat.sq at this
  norm_num at this
  nlinarith

private theorem atan2_of (y x s r : ℝ) (hr : 0 < r) (h : x ^ 2 + y ^ 2 = 1) (hs : s = 1 ∨ s = -1) :
    cos (atan2 (s * r * y) (s * r * x)) = s * x ∧ sin (atan2 (s * r * y) (s * r * x)) = s * y := by
  have hs2 : s ^ 2 = 1 := by rcases hs with rfl | rfl <;> norm_num
  have hz : (⟨s * r * x, s * r * y⟩ : ℂ) ≠ 0 := by
    intro hz
    have h1 := congrArg Complex.re hz
    have h2 := congrArg Complex.im hz
    simp only [Complex.zero_re, Complex.zero_im] at h1 h2
    have hsr : s * r ≠ 0 := by rcases hs with rfl | rfl <;> simp [hr.ne']
    have hx := (mul_eq_zero.mp h1).resolve_left hsr
    have hy := (mul_eq_zero.mp h2).resolve_left hsr
    rw [hx, hy] at h
    norm_num at h
  have hn : ‖(⟨s * r * x, s * r * y⟩ : ℂ)‖ = r := by
    rw [Complex.norm_def, Complex.normSq_mk, show s * r * x * (s * r * x) + s * r * y * (s * r * y) = r * r by
      linear_combination (r * r) * (x ^ 2 + y ^ 2) * hs2 + r * r * h, Real.sqrt_mul_self hr.le]
  unfold atan2
  rw [Complex.cos_arg hz, Complex.sin_arg, hn]
  constructor <;> field_simp

private theorem sign_of (x : ℝ) : ∃ s : ℝ, (s = 1 ∨ s = -1) ∧ |x| = s * x ∧ s * s = 1 ∧ x = s * |x| := by
  rcases abs_choice x with h | h
  · exact ⟨1, Or.inl rfl, by rw [h, one_mul], by norm_num, by rw [h, one_mul]⟩
  · exact ⟨-1, Or.inr rfl, by rw [h]; ring, by norm_num, by rw [h]; ring⟩

/-- The rows for three angles, all axes different. -/
private noncomputable def plainRows (a b c : ℝ) : V3 (V3 ℝ) :=
  ⟨⟨cos b * cos c, sin b * (sin a * cos c) - cos a * sin c, sin b * (cos a * cos c) + sin a * sin c⟩,
    ⟨cos b * sin c, sin b * (sin a * sin c) + cos a * cos c, sin b * (cos a * sin c) - sin a * cos c⟩,
    ⟨-sin b, cos b * sin a, cos b * cos a⟩⟩

/-- The rows for three angles, the first axis used again. -/
private noncomputable def againRows (a b c : ℝ) : V3 (V3 ℝ) :=
  ⟨⟨cos b, sin b * sin a, sin b * cos a⟩,
    ⟨sin b * sin c, -cos b * (sin a * sin c) + cos a * cos c, -cos b * (cos a * sin c) - sin a * cos c⟩,
    ⟨-sin b * cos c, cos b * (sin a * cos c) + cos a * sin c, cos b * (cos a * cos c) - sin a * sin c⟩⟩

private noncomputable def plainAngles (m : V3 (V3 ℝ)) : V3 ℝ :=
  ⟨atan2 m.z.y m.z.z, atan2 (-m.z.x) (√(m.x.x * m.x.x + m.y.x * m.y.x)), atan2 m.y.x m.x.x⟩

private noncomputable def againAngles (m : V3 (V3 ℝ)) : V3 ℝ :=
  ⟨atan2 m.x.y m.x.z, atan2 (√(m.x.y * m.x.y + m.x.z * m.x.z)) m.x.x, atan2 m.y.x (-m.z.x)⟩

private theorem plain_cy (a b c : ℝ) : √((plainRows a b c).x.x * (plainRows a b c).x.x + (plainRows a b c).y.x * (plainRows a b c).y.x) = |cos b| := by
  rw [← Real.sqrt_mul_self_eq_abs]
  congr 1
  simp only [plainRows]
  linear_combination (cos b ^ 2) * sin_sq_add_cos_sq c

private theorem again_sy (a b c : ℝ) : √((againRows a b c).x.y * (againRows a b c).x.y + (againRows a b c).x.z * (againRows a b c).x.z) = |sin b| := by
  rw [← Real.sqrt_mul_self_eq_abs]
  congr 1
  simp only [againRows]
  linear_combination (sin b ^ 2) * sin_sq_add_cos_sq a

private theorem plain_back (a b c : ℝ) (h : 0 < |cos b|) :
    plainRows (plainAngles (plainRows a b c)).x (plainAngles (plainRows a b c)).y (plainAngles (plainRows a b c)).z = plainRows a b c := by
  obtain ⟨s, hs, h1, h2, h3⟩ := sign_of (cos b)
  have ha := sin_sq_add_cos_sq a
  have hb := sin_sq_add_cos_sq b
  have hc := sin_sq_add_cos_sq c
  have e := plain_cy a b c
  have A := atan2_of (sin a) (cos a) s |cos b| h (by linarith) hs
  have C := atan2_of (sin c) (cos c) s |cos b| h (by linarith) hs
  have Bb := atan2_of (sin b) (s * cos b) 1 1 one_pos (by linear_combination (cos b ^ 2) * h2 + hb) (Or.inl rfl)
  rw [← h3] at A C
  simp only [one_mul] at Bb
  have eA : (plainAngles (plainRows a b c)).x = atan2 (cos b * sin a) (cos b * cos a) := rfl
  have eB : (plainAngles (plainRows a b c)).y = atan2 (sin b) (s * cos b) := by
    unfold plainAngles
    rw [e, h1]
    simp only [plainRows, neg_neg]
  have eC : (plainAngles (plainRows a b c)).z = atan2 (cos b * sin c) (cos b * cos c) := rfl
  unfold plainRows at eA eB eC ⊢
  rw [eA, eB, eC, A.1, A.2, Bb.1, Bb.2, C.1, C.2]
  simp only [V3.mk.injEq]
  refine ⟨⟨?_, ?_, ?_⟩, ⟨?_, ?_, ?_⟩, ?_, ?_, ?_⟩
  · linear_combination (cos b * cos c) * h2
  · linear_combination (sin b * (sin a * cos c) - cos a * sin c) * h2
  · linear_combination (sin b * (cos a * cos c) + sin a * sin c) * h2
  · linear_combination (cos b * sin c) * h2
  · linear_combination (sin b * (sin a * sin c) + cos a * cos c) * h2
  · linear_combination (sin b * (cos a * sin c) - sin a * cos c) * h2
  · trivial
  · linear_combination (cos b * sin a) * h2
  · linear_combination (cos b * cos a) * h2

private theorem again_back (a b c : ℝ) (h : 0 < |sin b|) :
    againRows (againAngles (againRows a b c)).x (againAngles (againRows a b c)).y (againAngles (againRows a b c)).z = againRows a b c := by
  obtain ⟨s, hs, h1, h2, h3⟩ := sign_of (sin b)
  have ha := sin_sq_add_cos_sq a
  have hb := sin_sq_add_cos_sq b
  have hc := sin_sq_add_cos_sq c
  have e := again_sy a b c
  have A := atan2_of (sin a) (cos a) s |sin b| h (by linarith) hs
  have C := atan2_of (sin c) (cos c) s |sin b| h (by linarith) hs
  have Bb := atan2_of (s * sin b) (cos b) 1 1 one_pos (by linear_combination (sin b ^ 2) * h2 + hb) (Or.inl rfl)
  rw [← h3] at A C
  simp only [one_mul] at Bb
  have eA : (againAngles (againRows a b c)).x = atan2 (sin b * sin a) (sin b * cos a) := rfl
  have eB : (againAngles (againRows a b c)).y = atan2 (s * sin b) (cos b) := by
    unfold againAngles
    rw [e, h1]
    simp only [againRows]
  have eC : (againAngles (againRows a b c)).z = atan2 (sin b * sin c) (sin b * cos c) := by
    unfold againAngles
    simp only [againRows, neg_mul, neg_neg]
  unfold againRows at eA eB eC ⊢
  rw [eA, eB, eC, A.1, A.2, Bb.1, Bb.2, C.1, C.2]
  simp only [V3.mk.injEq]
  refine ⟨⟨?_, ?_, ?_⟩, ⟨?_, ?_, ?_⟩, ?_, ?_, ?_⟩
  · trivial
  · linear_combination (sin b * sin a) * h2
  · linear_combination (sin b * cos a) * h2
  · linear_combination (sin b * sin c) * h2
  · linear_combination (-cos b * (sin a * sin c) + cos a * cos c) * h2
  · linear_combination (-cos b * (cos a * sin c) - sin a * cos c) * h2
  · linear_combination (-sin b * cos c) * h2
  · linear_combination (cos b * (sin a * cos c) + cos a * sin c) * h2
  · linear_combination (cos b * (cos a * cos c) - sin a * sin c) * h2

private noncomputable def preAngles (t : AxisSeq) (a b c : ℝ) : V3 ℝ :=
  ⟨if t.parity then -(if t.frame then c else a) else (if t.frame then c else a), if t.parity then -b else b,
    if t.parity then -(if t.frame then a else c) else (if t.frame then a else c)⟩

private noncomputable def postAngles (t : AxisSeq) (a : V3 ℝ) : V3 ℝ :=
  let a : V3 ℝ := if t.parity then ⟨-a.x, -a.y, -a.z⟩ else a
  if t.frame then ⟨a.z, a.y, a.x⟩ else a

private theorem pre_post (t : AxisSeq) (v : V3 ℝ) : preAngles t (postAngles t v).x (postAngles t v).y (postAngles t v).z = v := by
  obtain ⟨i, p, r, f⟩ := t
  cases p <;> cases f <;> simp [preAngles, postAngles]

private def placed (t : AxisSeq) (R : V3 (V3 ℝ)) : V3 (V3 ℝ) :=
  put3 t.first t.second (put3 t.first t.second R.x.x R.x.y R.x.z) (put3 t.first t.second R.y.x R.y.y R.y.z)
    (put3 t.first t.second R.z.x R.z.y R.z.z)

private noncomputable def rowsOf (t : AxisSeq) (v : V3 ℝ) : V3 (V3 ℝ) := if t.repetition = true then againRows v.x v.y v.z else plainRows v.x v.y v.z

private theorem matrix_placed (t : AxisSeq) (a b c : ℝ) : eulerMatrixOf t a b c = placed t (rowsOf t (preAngles t a b c)) := by
  obtain ⟨i, p, r, f⟩ := t
  cases r <;> rfl

private theorem got (t : AxisSeq) (h : t.first < 3) {A : Type} (x y z : A) :
    get3 (put3 t.first t.second x y z) t.first = x ∧ get3 (put3 t.first t.second x y z) t.second = y ∧
      get3 (put3 t.first t.second x y z) t.third = z := by
  obtain ⟨i, p, r, f⟩ := t
  simp only at h
  obtain rfl | rfl | rfl : i = 0 ∨ i = 1 ∨ i = 2 := by omega
  all_goals cases p <;> exact ⟨rfl, rfl, rfl⟩

private theorem angles_placed (t : AxisSeq) (h : t.first < 3) (R : V3 (V3 ℝ))
    (hc : quatEps < if t.repetition = true then √(R.x.y * R.x.y + R.x.z * R.x.z) else √(R.x.x * R.x.x + R.y.x * R.y.x)) :
    eulerAnglesOf t (placed t R) = postAngles t (if t.repetition = true then againAngles R else plainAngles R) := by
  have g := fun {A : Type} (x y z : A) => got t h x y z
  unfold eulerAnglesOf placed
  simp only [(g _ _ _).1, (g _ _ _).2.1, (g _ _ _).2.2]
  cases hr : t.repetition with
  | true =>
    simp only [hr, if_true] at hc ⊢
    rw [if_pos hc]
    rfl
  | false =>
    simp only [hr, Bool.false_eq_true, if_false] at hc ⊢
    rw [if_pos hc]
    rfl

private theorem name_entry (axes : List Char) (h : AxesName axes) :
    ∃ t, axesOf axes = .ok t ∧ axesOf (axes.map Char.toLower) = .ok t ∧ t.first < 3 ∧ (t.repetition = true ↔ axes[1]? = axes[3]?) := by
  obtain ⟨f, p, q, r, rfl, hf, hp, hq, hr, hpq, hqr⟩ := h
  rcases hf with rfl | rfl <;> rcases hp with rfl | rfl | rfl <;> rcases hq with rfl | rfl | rfl <;>
    first
    | exact absurd rfl hpq
    | (rcases hr with rfl | rfl | rfl <;>
        first
        | exact absurd rfl hqr
        | exact ⟨_, rfl, rfl, by decide, by decide⟩)

/-- **C281**: the angles found from a matrix give the matrix back, for all 24 names, unless the middle angle is so close to the end of its range
that the others cannot be told apart. -/
theorem C281_angles_back (axes : List Char) (h : AxesName axes) (a b c : ℝ) (hb : Tellable axes b) :
    ∃ m v, eulerMatrix axes a b c = .ok m ∧ eulerAnglesFrom axes m = .ok v ∧ eulerMatrix axes v.x v.y v.z = .ok m := by
  obtain ⟨t, h1, h2, h3, h4⟩ := name_entry axes h
  have hm : ∀ a b c, eulerMatrix axes a b c = .ok (eulerMatrixOf t a b c) := by
    intro a b c
    unfold eulerMatrix
    rw [h1]
    rfl
  refine ⟨_, eulerAnglesOf t (eulerMatrixOf t a b c), hm a b c, ?_, ?_⟩
  · unfold eulerAnglesFrom
    rw [h2]
    rfl
  rw [hm]
  congr 1
  have hy : (preAngles t a b c).y = b ∨ (preAngles t a b c).y = -b := by
    unfold preAngles
    cases t.parity <;> simp
  have hs : |sin (preAngles t a b c).y| = |sin b| := by
    rcases hy with e | e
    · rw [e]
    · rw [e, sin_neg, abs_neg]
  have hc : |cos (preAngles t a b c).y| = |cos b| := by
    rcases hy with e | e
    · rw [e]
    · rw [e, cos_neg]
  unfold Tellable at hb
  rw [matrix_placed t a b c]
  cases hr : t.repetition with
  | true =>
    rw [if_pos (h4.1 hr)] at hb
    have e : rowsOf t (preAngles t a b c) = againRows (preAngles t a b c).x (preAngles t a b c).y (preAngles t a b c).z := by
      unfold rowsOf; rw [if_pos hr]
    rw [angles_placed t h3 _ (by rw [if_pos hr, e, again_sy, hs]; exact hb), if_pos hr, matrix_placed, pre_post]
    congr 1
    unfold rowsOf
    rw [if_pos hr, if_pos hr]
    exact again_back _ _ _ (by rw [hs]; exact lt_trans eps_pos hb)
  | false =>
    have hr' : ¬ t.repetition = true := by rw [hr]; exact Bool.false_ne_true
    rw [if_neg (fun e => hr' (h4.2 e))] at hb
    have e : rowsOf t (preAngles t a b c) = plainRows (preAngles t a b c).x (preAngles t a b c).y (preAngles t a b c).z := by
      unfold rowsOf; rw [if_neg hr']
    rw [angles_placed t h3 _ (by rw [if_neg hr', e, plain_cy, hc]; exact hb), if_neg hr', matrix_placed, pre_post]
    congr 1
    unfold rowsOf
    rw [if_neg hr', if_neg hr']
    exact plain_back _ _ _ (by rw [hc]; exact lt_trans eps_pos hb)

example : Tellable ['s', 'x', 'y', 'z'] 0 ∧ Tellable ['r', 'z', 'x', 'z'] (π / 2) := by
  have h : quatEps < 1 := by unfold quatEps; norm_num
  constructor
  · unfold Tellable
    rw [if_neg (by decide), cos_zero, abs_one]
    exact h
  · unfold Tellable
    rw [if_pos (by decide), sin_pi_div_two, abs_one]
    exact h

private noncomputable def plainLock (m : V3 (V3 ℝ)) : V3 ℝ :=
  ⟨atan2 (-m.y.z) m.y.y, atan2 (-m.z.x) (√(m.x.x * m.x.x + m.y.x * m.y.x)), 0⟩

private noncomputable def againLock (m : V3 (V3 ℝ)) : V3 ℝ :=
  ⟨atan2 (-m.y.z) m.y.y, atan2 (√(m.x.y * m.x.y + m.x.z * m.x.z)) m.x.x, 0⟩

private theorem lock_placed (t : AxisSeq) (h : t.first < 3) (R : V3 (V3 ℝ))
    (hc : ¬ quatEps < if t.repetition = true then √(R.x.y * R.x.y + R.x.z * R.x.z) else √(R.x.x * R.x.x + R.y.x * R.y.x)) :
    eulerAnglesOf t (placed t R) = postAngles t (if t.repetition = true then againLock R else plainLock R) := by
  have g := fun {A : Type} (x y z : A) => got t h x y z
  unfold eulerAnglesOf placed
  simp only [(g _ _ _).1, (g _ _ _).2.1, (g _ _ _).2.2]
  cases hr : t.repetition with
  | true =>
    simp only [hr, if_true] at hc ⊢
    rw [if_neg hc]
    rfl
  | false =>
    simp only [hr, Bool.false_eq_true, if_false] at hc ⊢
    rw [if_neg hc]
    rfl

private theorem plain_lock (a b c : ℝ) (h : cos b = 0) :
    plainRows (plainLock (plainRows a b c)).x (plainLock (plainRows a b c)).y (plainLock (plainRows a b c)).z = plainRows a b c := by
  have ha := sin_sq_add_cos_sq a
  have hb := sin_sq_add_cos_sq b
  have hc := sin_sq_add_cos_sq c
  rw [h] at hb
  have hb' : sin b ^ 2 = 1 := by linarith
  have e := plain_cy a b c
  have A := atan2_of (sin a * cos c - sin b * (cos a * sin c)) (sin b * (sin a * sin c) + cos a * cos c) 1 1 one_pos
    (by linear_combination hb' * (sin c ^ 2 * sin a ^ 2 + sin c ^ 2 * cos a ^ 2) + hc * (sin a ^ 2 + cos a ^ 2) + ha) (Or.inl rfl)
  have Bb := atan2_of (sin b) 0 1 1 one_pos (by linarith) (Or.inl rfl)
  simp only [one_mul] at A Bb
  have eA : (plainLock (plainRows a b c)).x = atan2 (sin a * cos c - sin b * (cos a * sin c)) (sin b * (sin a * sin c) + cos a * cos c) := by
    unfold plainLock plainRows
    simp only [neg_sub]
  have eB : (plainLock (plainRows a b c)).y = atan2 (sin b) 0 := by
    unfold plainLock
    rw [e, h, abs_zero]
    simp only [plainRows, neg_neg]
  have eC : (plainLock (plainRows a b c)).z = 0 := rfl
  unfold plainRows at eA eB eC ⊢
  rw [eA, eB, eC, A.1, A.2, Bb.1, Bb.2, sin_zero, cos_zero, h]
  simp only [V3.mk.injEq]
  refine ⟨⟨by ring, ?_, ?_⟩, ⟨by ring, by ring, by ring⟩, trivial, by ring, by ring⟩
  · linear_combination (-(cos a * sin c)) * hb'
  · linear_combination (sin a * sin c) * hb'

private theorem again_lock (a b c : ℝ) (h : sin b = 0) :
    againRows (againLock (againRows a b c)).x (againLock (againRows a b c)).y (againLock (againRows a b c)).z = againRows a b c := by
  have ha := sin_sq_add_cos_sq a
  have hb := sin_sq_add_cos_sq b
  have hc := sin_sq_add_cos_sq c
  rw [h] at hb
  have hb' : cos b ^ 2 = 1 := by linarith
  have e := again_sy a b c
  have A := atan2_of (cos b * (cos a * sin c) + sin a * cos c) (-cos b * (sin a * sin c) + cos a * cos c) 1 1 one_pos
    (by linear_combination hb' * (sin c ^ 2 * sin a ^ 2 + sin c ^ 2 * cos a ^ 2) + hc * (sin a ^ 2 + cos a ^ 2) + ha) (Or.inl rfl)
  have Bb := atan2_of 0 (cos b) 1 1 one_pos (by linarith) (Or.inl rfl)
  simp only [one_mul] at A Bb
  have eA : (againLock (againRows a b c)).x = atan2 (cos b * (cos a * sin c) + sin a * cos c) (-cos b * (sin a * sin c) + cos a * cos c) := by
    unfold againLock againRows
    simp only
    congr 1
    ring
  have eB : (againLock (againRows a b c)).y = atan2 0 (cos b) := by
    unfold againLock
    rw [e, h, abs_zero]
    rfl
  have eC : (againLock (againRows a b c)).z = 0 := rfl
  unfold againRows at eA eB eC ⊢
  rw [eA, eB, eC, A.1, A.2, Bb.1, Bb.2, sin_zero, cos_zero, h]
  simp only [V3.mk.injEq]
  refine ⟨⟨trivial, by ring, by ring⟩, ⟨by ring, by ring, by ring⟩, by ring, ?_, ?_⟩
  · linear_combination (cos a * sin c) * hb'
  · linear_combination (-(sin a * sin c)) * hb'

/-- **C281**: also where the first and the last angle cannot be told apart, the angles that are found give the matrix back; one of them is zero. -/
theorem C281_angles_locked (axes : List Char) (h : AxesName axes) (a b c : ℝ) (hb : Locked axes b) :
    ∃ m v, eulerMatrix axes a b c = .ok m ∧ eulerAnglesFrom axes m = .ok v ∧ eulerMatrix axes v.x v.y v.z = .ok m ∧ (v.x = 0 ∨ v.z = 0) := by
  obtain ⟨t, h1, h2, h3, h4⟩ := name_entry axes h
  have hm : ∀ a b c, eulerMatrix axes a b c = .ok (eulerMatrixOf t a b c) := by
    intro a b c
    unfold eulerMatrix
    rw [h1]
    rfl
  have hz : ∀ v : V3 ℝ, v.z = 0 → (postAngles t v).x = 0 ∨ (postAngles t v).z = 0 := by
    intro v hv
    unfold postAngles
    cases t.parity <;> cases t.frame <;> simp [hv]
  have hy : (preAngles t a b c).y = b ∨ (preAngles t a b c).y = -b := by
    unfold preAngles
    cases t.parity <;> simp
  have hs : |sin (preAngles t a b c).y| = |sin b| := by
    rcases hy with e | e
    · rw [e]
    · rw [e, sin_neg, abs_neg]
  have hc : |cos (preAngles t a b c).y| = |cos b| := by
    rcases hy with e | e
    · rw [e]
    · rw [e, cos_neg]
  have h0 : ¬ quatEps < 0 := not_lt.mpr eps_pos.le
  unfold Locked at hb
  refine ⟨_, eulerAnglesOf t (eulerMatrixOf t a b c), hm a b c, ?_, ?_⟩
  · unfold eulerAnglesFrom
    rw [h2]
    rfl
  rw [hm, matrix_placed t a b c]
  cases hr : t.repetition with
  | true =>
    rw [if_pos (h4.1 hr)] at hb
    have e : rowsOf t (preAngles t a b c) = againRows (preAngles t a b c).x (preAngles t a b c).y (preAngles t a b c).z := by
      unfold rowsOf; rw [if_pos hr]
    rw [lock_placed t h3 _ (by rw [if_pos hr, e, again_sy, hs, hb, abs_zero]; exact h0), if_pos hr]
    refine ⟨?_, hz _ rfl⟩
    rw [matrix_placed, pre_post]
    congr 2
    unfold rowsOf
    rw [if_pos hr, if_pos hr]
    exact again_lock _ _ _ (by rw [hb, abs_zero] at hs; exact abs_eq_zero.mp hs)
  | false =>
    have hr' : ¬ t.repetition = true := by rw [hr]; exact Bool.false_ne_true
    rw [if_neg (fun e => hr' (h4.2 e))] at hb
    have e : rowsOf t (preAngles t a b c) = plainRows (preAngles t a b c).x (preAngles t a b c).y (preAngles t a b c).z := by
      unfold rowsOf; rw [if_neg hr']
    rw [lock_placed t h3 _ (by rw [if_neg hr', e, plain_cy, hc, hb, abs_zero]; exact h0), if_neg hr']
    refine ⟨?_, hz _ rfl⟩
    rw [matrix_placed, pre_post]
    congr 2
    unfold rowsOf
    rw [if_neg hr', if_neg hr']
    exact plain_lock _ _ _ (by rw [hb, abs_zero] at hc; exact abs_eq_zero.mp hc)

example : Locked ['s', 'x', 'y', 'z'] (π / 2) ∧ Locked ['r', 'z', 'x', 'z'] 0 := by
  constructor
  · unfold Locked
    rw [if_neg (by decide)]
    exact cos_pi_div_two
  · unfold Locked
    rw [if_pos (by decide)]
    exact sin_zero

/-! ### The quaternion of a matrix -/

private theorem matrix_unit (q : RosQuat) (h : quatEps ≤ q.sq) :
    quatMatrix q = ⟨⟨1 - 2 * ((unitQuat q).y ^ 2 + (unitQuat q).z ^ 2), 2 * ((unitQuat q).x * (unitQuat q).y - (unitQuat q).z * (unitQuat q).w),
        2 * ((unitQuat q).x * (unitQuat q).z + (unitQuat q).y * (unitQuat q).w)⟩,
      ⟨2 * ((unitQuat q).x * (unitQuat q).y + (unitQuat q).z * (unitQuat q).w), 1 - 2 * ((unitQuat q).x ^ 2 + (unitQuat q).z ^ 2),
        2 * ((unitQuat q).y * (unitQuat q).z - (unitQuat q).x * (unitQuat q).w)⟩,
      ⟨2 * ((unitQuat q).x * (unitQuat q).z - (unitQuat q).y * (unitQuat q).w), 2 * ((unitQuat q).y * (unitQuat q).z + (unitQuat q).x * (unitQuat q).w),
        1 - 2 * ((unitQuat q).x ^ 2 + (unitQuat q).y ^ 2)⟩⟩ := by
  have hp : 0 < q.sq := lt_of_lt_of_le eps_pos h
  have hk : √(2 / q.sq) * √(2 / q.sq) = 2 * (1 / √q.sq * (1 / √q.sq)) := by
    rw [Real.mul_self_sqrt (by positivity), div_mul_div_comm, Real.mul_self_sqrt hp.le]
    ring
  unfold quatMatrix unitQuat quatScale
  rw [if_neg (not_lt.mpr h)]
  simp only
  generalize √(2 / q.sq) = k at hk
  generalize 1 / √q.sq = r at hk
  simp only [V3.mk.injEq]
  refine ⟨⟨?_, ?_, ?_⟩, ⟨?_, ?_, ?_⟩, ?_, ?_, ?_⟩
  · linear_combination (-q.y ^ 2 - q.z ^ 2) * hk
  · linear_combination (q.x * q.y - q.z * q.w) * hk
  · linear_combination (q.x * q.z + q.y * q.w) * hk
  · linear_combination (q.x * q.y + q.z * q.w) * hk
  · linear_combination (-q.x ^ 2 - q.z ^ 2) * hk
  · linear_combination (q.y * q.z - q.x * q.w) * hk
  · linear_combination (q.x * q.z - q.y * q.w) * hk
  · linear_combination (q.y * q.z + q.x * q.w) * hk
  · linear_combination (-q.x ^ 2 - q.y ^ 2) * hk

private theorem from_part (u v : RosQuat) (t p : ℝ) (hp : p ≠ 0) (ht : t = 4 * p ^ 2) (hv : v = quatScale (4 * p) u) :
    quatScale (1 / 2 / √(t * 1)) v = u ∨ quatScale (1 / 2 / √(t * 1)) v = quatScale (-1) u := by
  obtain ⟨s, hs, h1, h2, h3⟩ := sign_of p
  have hsq : √(t * 1) = 2 * |p| := by
    rw [mul_one, ht, show 4 * p ^ 2 = (2 * |p|) * (2 * |p|) by rw [← sq_abs p]; ring]
    exact Real.sqrt_mul_self (by positivity)
  have ha : |p| ≠ 0 := abs_ne_zero.mpr hp
  have e : 1 / 2 / √(t * 1) * (4 * p) = s := by
    rw [hsq]
    field_simp
    rw [mul_comm]; linarith
  have : quatScale (1 / 2 / √(t * 1)) v = quatScale s u := by
    rw [hv]
    unfold quatScale
    simp only [RosQuat.mk.injEq]
    refine ⟨?_, ?_, ?_, ?_⟩ <;> rw [← mul_assoc, e]
  rw [this]
  rcases hs with rfl | rfl
  · left; unfold quatScale; simp
  · right; rfl

/-- **C281**: the quaternion found from a matrix of a rotation is the quaternion of the length 1 that it was made of, or its opposite, which is the
same rotation. -/
theorem C281_quaternion_back (q : RosQuat) (h : quatEps ≤ q.sq) :
    quatFromMatrix (quatMatrix q) = unitQuat q ∨ quatFromMatrix (quatMatrix q) = quatScale (-1) (unitQuat q) := by
  have hu := unit_sq q (lt_of_lt_of_le eps_pos h).ne'
  rw [matrix_unit q h]
  generalize unitQuat q = u at hu
  have hu' : u.x ^ 2 + u.y ^ 2 + u.z ^ 2 + u.w ^ 2 = 1 := by unfold RosQuat.sq at hu; linarith
  unfold quatFromMatrix
  dsimp only
  split
  · rename_i ht
    have e : 1 - 2 * (u.y ^ 2 + u.z ^ 2) + (1 - 2 * (u.x ^ 2 + u.z ^ 2)) + (1 - 2 * (u.x ^ 2 + u.y ^ 2)) + 1 = 4 * u.w ^ 2 := by
      linear_combination (-4) * hu'
    refine from_part u _ _ u.w (fun h0 => ?_) e ?_
    · rw [e, h0] at ht; norm_num at ht
    · unfold quatScale
      simp only [RosQuat.mk.injEq]
      refine ⟨by ring, by ring, by ring, ?_⟩
      rw [e]; ring
  · rename_i ht
    have hw : 4 * u.w ^ 2 ≤ 1 := by nlinarith
    by_cases h1 : 1 - 2 * (u.y ^ 2 + u.z ^ 2) < 1 - 2 * (u.x ^ 2 + u.z ^ 2)
    · rw [if_pos h1]
      by_cases h2 : get3 (get3 (⟨⟨1 - 2 * (u.y ^ 2 + u.z ^ 2), 2 * (u.x * u.y - u.z * u.w), 2 * (u.x * u.z + u.y * u.w)⟩,
          ⟨2 * (u.x * u.y + u.z * u.w), 1 - 2 * (u.x ^ 2 + u.z ^ 2), 2 * (u.y * u.z - u.x * u.w)⟩,
          ⟨2 * (u.x * u.z - u.y * u.w), 2 * (u.y * u.z + u.x * u.w), 1 - 2 * (u.x ^ 2 + u.y ^ 2)⟩⟩ : V3 (V3 ℝ)) 1) 1 < 1 - 2 * (u.x ^ 2 + u.y ^ 2)
      · rw [if_pos h2]
        have h2' : 1 - 2 * (u.x ^ 2 + u.z ^ 2) < 1 - 2 * (u.x ^ 2 + u.y ^ 2) := h2
        have hz : u.z ≠ 0 := by intro h0; rw [h0] at h2'; nlinarith [sq_nonneg u.y]
        simp only [nextAxis, get3, put3]
        refine from_part u _ _ u.z hz ?_ ?_
        · norm_num; ring
        · unfold quatScale
          norm_num
          refine ⟨?_, ?_, ?_, ?_⟩ <;> ring
      · rw [if_neg h2]
        have hy : u.y ≠ 0 := by intro h0; rw [h0] at h1; nlinarith [sq_nonneg u.x]
        simp only [nextAxis, get3, put3]
        refine from_part u _ _ u.y hy ?_ ?_
        · norm_num; ring
        · unfold quatScale
          norm_num
          refine ⟨?_, ?_, ?_, ?_⟩ <;> ring
    · rw [if_neg h1]
      by_cases h2 : get3 (get3 (⟨⟨1 - 2 * (u.y ^ 2 + u.z ^ 2), 2 * (u.x * u.y - u.z * u.w), 2 * (u.x * u.z + u.y * u.w)⟩,
          ⟨2 * (u.x * u.y + u.z * u.w), 1 - 2 * (u.x ^ 2 + u.z ^ 2), 2 * (u.y * u.z - u.x * u.w)⟩,
          ⟨2 * (u.x * u.z - u.y * u.w), 2 * (u.y * u.z + u.x * u.w), 1 - 2 * (u.x ^ 2 + u.y ^ 2)⟩⟩ : V3 (V3 ℝ)) 0) 0 < 1 - 2 * (u.x ^ 2 + u.y ^ 2)
      · rw [if_pos h2]
        have h2' : 1 - 2 * (u.y ^ 2 + u.z ^ 2) < 1 - 2 * (u.x ^ 2 + u.y ^ 2) := h2
        have hz : u.z ≠ 0 := by intro h0; rw [h0] at h2'; nlinarith [sq_nonneg u.x]
        simp only [nextAxis, get3, put3]
        refine from_part u _ _ u.z hz ?_ ?_
        · norm_num; ring
        · unfold quatScale
          norm_num
          refine ⟨?_, ?_, ?_, ?_⟩ <;> ring
      · rw [if_neg h2]
        have h2' : ¬ 1 - 2 * (u.y ^ 2 + u.z ^ 2) < 1 - 2 * (u.x ^ 2 + u.y ^ 2) := h2
        have hx : u.x ≠ 0 := by intro h0; rw [h0] at h1 h2' hu'; nlinarith [sq_nonneg u.y, sq_nonneg u.z]
        simp only [nextAxis, get3, put3]
        refine from_part u _ _ u.x hx ?_ ?_
        · norm_num; ring
        · unfold quatScale
          norm_num
          refine ⟨?_, ?_, ?_, ?_⟩ <;> ring

-- A quarter turn between two orientations, and the name of the angles of the vehicle.
example : AxesName ['s', 'x', 'y', 'z'] := ⟨_, _, _, _, rfl, by decide, by decide, by decide, by decide, by decide, by decide⟩

example : ∃ q1 q0 : RosQuat, quatEps ≤ q1.sq ∧ quatEps ≤ q0.sq ∧ quatEps ≤ q1.sq * q0.sq :=
  ⟨⟨1, 0, 0, 0⟩, ⟨1, 0, 0, 0⟩, by unfold RosQuat.sq quatEps; norm_num, by unfold RosQuat.sq quatEps; norm_num, by unfold RosQuat.sq quatEps; norm_num⟩

example : ∃ q0 q1 : RosQuat, q0.sq ≠ 0 ∧ q1.sq ≠ 0 ∧ quatEps ≤ 1 - |quatCos q0 q1| ∧ quatEps ≤ arccos |quatCos q0 q1| := by
  have hc : quatCos ⟨0, 0, 0, 1⟩ ⟨1, 0, 0, 0⟩ = 0 := by unfold quatCos; norm_num
  refine ⟨⟨0, 0, 0, 1⟩, ⟨1, 0, 0, 0⟩, by unfold RosQuat.sq; norm_num, by unfold RosQuat.sq; norm_num, ?_, ?_⟩
  · rw [hc, abs_zero, sub_zero]; exact eps_one
  · rw [hc, abs_zero, arccos_zero]; linarith [two_le_pi, eps_one]

end Oplab.Props
