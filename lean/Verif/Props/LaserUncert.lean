import Verif.Spec.LaserUncert
import Mathlib.Tactic.Linarith
import Mathlib.Tactic.FieldSimp
import Mathlib.Tactic.LinearCombination

/-!
# C212: the search for the uncertainty planes of a laser
-/

namespace Oplab.Props
open Oplab Oplab.Spec

private theorem n2 (p q : V3 ℝ) : norm2 (diff3 q p) = distYZ p q := by
  unfold norm2 diff3 distYZ; ring_nf

private theorem good_iff (d : ℝ) (hd : 0 < d) (t : V3 ℝ × V3 ℝ × V3 ℝ) : tripleAccepted d t.1 t.2.1 t.2.2 = true ↔ GoodTriple d t := by
  unfold tripleAccepted GoodTriple
  simp only [n2]
  by_cases h : distYZ t.1 t.2.1 < d ∨ distYZ t.1 t.2.2 < d ∨ distYZ t.2.1 t.2.2 < d
  · rw [if_pos h]
    constructor
    · intro h'; cases h'
    · rintro ⟨h1, h2, h3, -⟩
      rcases h with h | h | h <;> linarith
  · rw [if_neg h]
    push Not at h
    have hp : 0 < distYZ t.1 t.2.1 * distYZ t.1 t.2.2 := mul_pos (by linarith) (by linarith)
    have e : (|(diff3 t.2.1 t.1).y * (diff3 t.2.2 t.1).z - (diff3 t.2.1 t.1).z * (diff3 t.2.2 t.1).y| /
        (distYZ t.1 t.2.1 * distYZ t.1 t.2.2) < 866 / 1000) ↔
        |(t.2.1.y - t.1.y) * (t.2.2.z - t.1.z) - (t.2.1.z - t.1.z) * (t.2.2.y - t.1.y)| <
          866 / 1000 * (distYZ t.1 t.2.1 * distYZ t.1 t.2.2) := div_lt_iff₀ hp
    by_cases h2 : |(t.2.1.y - t.1.y) * (t.2.2.z - t.1.z) - (t.2.1.z - t.1.z) * (t.2.2.y - t.1.y)| <
          866 / 1000 * (distYZ t.1 t.2.1 * distYZ t.1 t.2.2)
    · rw [if_pos (e.mpr h2)]
      constructor
      · intro h'; cases h'
      · rintro ⟨-, -, -, h4⟩
        linarith
    · rw [if_neg (fun q => h2 (e.mp q))]
      exact ⟨fun _ => ⟨h.1, h.2.1, h.2.2, not_lt.mp h2⟩, fun _ => rfl⟩

private theorem loop_iff (num : ℕ) (d : ℝ) : ∀ (draws : List (V3 ℝ × V3 ℝ × V3 ℝ)) (planes : List (V3 ℝ × ℝ)),
    (∃ r, uncertLoop num d draws planes = some r) ↔
      num ≤ planes.length + (draws.filter fun t => tripleAccepted d t.1 t.2.1 t.2.2).length
  | [], planes => by
    rw [uncertLoop]
    by_cases h : planes.length < num
    · rw [if_pos h]; simp; omega
    · rw [if_neg h]; simp; omega
  | t :: ts, planes => by
    rw [uncertLoop]
    by_cases h : planes.length < num
    · rw [if_pos h]
      by_cases ha : tripleAccepted d t.1 t.2.1 t.2.2 = true
      · rw [if_pos ha, loop_iff num d ts, List.filter_cons, if_pos ha]
        simp only [List.length_append, List.length_cons, List.length_nil]
        omega
      · rw [if_neg ha, loop_iff num d ts, List.filter_cons, if_neg ha]
    · rw [if_neg h]
      simp only [Option.some.injEq, exists_eq', true_iff]
      omega

/-- C212: the search ends as soon as enough good triples have been drawn, and not before. -/
theorem C212_ends (num : ℕ) (d : ℝ) (hd : 0 < d) (draws : List (V3 ℝ × V3 ℝ × V3 ℝ)) :
    (∃ r, uncertLoop num d draws [] = some r) ↔ ∃ good : List (V3 ℝ × V3 ℝ × V3 ℝ), good.Sublist draws ∧ good.length = num ∧
      ∀ t ∈ good, GoodTriple d t := by
  rw [loop_iff]
  simp only [List.length_nil, Nat.zero_add]
  constructor
  · intro h
    refine ⟨(draws.filter fun t => tripleAccepted d t.1 t.2.1 t.2.2).take num, (List.take_sublist _ _).trans List.filter_sublist,
      by rw [List.length_take]; omega, fun t ht => ?_⟩
    exact (good_iff d hd t).mp (List.mem_filter.mp (List.mem_of_mem_take ht)).2
  · rintro ⟨good, hs, hl, hg⟩
    have := (hs.filter fun t => tripleAccepted d t.1 t.2.1 t.2.2).length_le
    rw [List.filter_eq_self.mpr (fun t ht => (good_iff d hd t).mpr (hg t ht))] at this
    omega

/-- C212: so it can end exactly for clouds that have a good triple. -/
theorem C212_possible (num : ℕ) (hn : 0 < num) (inliers : List (V3 ℝ)) (hd : 0 < minDistOf inliers) :
    (∃ draws, (∀ t ∈ draws, DrawnFrom inliers t) ∧ ∃ r, uncertLoop num (minDistOf inliers) draws [] = some r) ↔
      ∃ t, DrawnFrom inliers t ∧ GoodTriple (minDistOf inliers) t := by
  constructor
  · rintro ⟨draws, hf, hr⟩
    obtain ⟨good, hs, hl, hg⟩ := (C212_ends num _ hd draws).mp hr
    cases good with
    | nil => simp at hl; omega
    | cons t ts => exact ⟨t, hf t (hs.subset (by simp)), hg t (by simp)⟩
  · rintro ⟨t, ht, hg⟩
    refine ⟨List.replicate num t, fun x hx => (List.eq_of_mem_replicate hx) ▸ ht, ?_⟩
    rw [C212_ends _ _ hd]
    exact ⟨_, List.Sublist.refl _, List.length_replicate, fun x hx => (List.eq_of_mem_replicate hx) ▸ hg⟩

private theorem sum_add' {α : Type} (f g : α → ℝ) : ∀ l : List α, (l.map fun p => f p + g p).sum = (l.map f).sum + (l.map g).sum
  | [] => by simp
  | a :: l => by simp only [List.map_cons, List.sum_cons, sum_add' f g l]; ring

/-- C212: the square of the smallest distance is four times the mean squared distance from the centre. -/
theorem C212_min_dist (inliers : List (V3 ℝ)) :
    0 ≤ minDistOf inliers ∧ minDistOf inliers ^ 2 =
      4 * spreadAbout inliers ((inliers.map V3.y).sum / inliers.length) ((inliers.map V3.z).sum / inliers.length) := by
  have hs : ∀ l : List ℝ, 0 ≤ (l.map fun x => (x - meanL l) ^ 2).sum := fun l =>
    List.sum_nonneg (by
      intro a ha
      obtain ⟨b, -, rfl⟩ := List.mem_map.mp ha
      exact sq_nonneg _)
  have hm : ∀ l : List ℝ, stdL l ^ 2 = (l.map fun x => (x - meanL l) ^ 2).sum / l.length := by
    intro l
    unfold stdL
    rw [Real.sq_sqrt]
    · simp [meanL]
    · rw [meanL]
      exact div_nonneg (hs l) (by positivity)
  constructor
  · exact mul_nonneg (by norm_num) (Real.sqrt_nonneg _)
  · unfold minDistOf
    rw [mul_pow, Real.sq_sqrt (by positivity), hm, hm, spreadAbout, sum_add']
    simp only [meanL, List.length_map, List.map_map, Function.comp_def]
    ring

private theorem sublist_sum {α : Type} (f : α → ℝ) (hf : ∀ a, 0 ≤ f a) {l l' : List α} (h : l.Sublist l') : (l.map f).sum ≤ (l'.map f).sum := by
  induction h with
  | slnil => exact le_rfl
  | cons a _ ih => simp only [List.map_cons, List.sum_cons]; linarith [hf a]
  | cons_cons a _ ih => simp only [List.map_cons, List.sum_cons]; linarith

private theorem distYZ_sq (p q : V3 ℝ) : distYZ p q ^ 2 = (p.y - q.y) ^ 2 + (p.z - q.z) ^ 2 := Real.sq_sqrt (by positivity)

/-- C212: a cloud with a good triple has at least four points. -/
theorem C212_needs_four (inliers : List (V3 ℝ)) (hd : 0 < minDistOf inliers) (t : V3 ℝ × V3 ℝ × V3 ℝ) (ht : DrawnFrom inliers t)
    (hg : GoodTriple (minDistOf inliers) t) : 4 ≤ inliers.length := by
  obtain ⟨-, hm⟩ := C212_min_dist inliers
  set my := (inliers.map V3.y).sum / inliers.length
  set mz := (inliers.map V3.z).sum / inliers.length
  obtain ⟨l, hp, hsub⟩ := ht
  have h1 := sublist_sum (fun p : V3 ℝ => (p.y - my) ^ 2 + (p.z - mz) ^ 2) (fun p => by positivity) hsub
  rw [(hp.map _).sum_eq] at h1
  simp only [List.map_cons, List.map_nil, List.sum_cons, List.sum_nil, add_zero] at h1
  obtain ⟨g1, g2, g3, -⟩ := hg
  have q1 := pow_le_pow_left₀ hd.le g1 2
  have q2 := pow_le_pow_left₀ hd.le g2 2
  have q3 := pow_le_pow_left₀ hd.le g3 2
  rw [distYZ_sq] at q1 q2 q3
  have hpos : 0 < minDistOf inliers ^ 2 := by positivity
  have hn : (0 : ℝ) < inliers.length := by
    have : inliers ≠ [] := by
      rintro rfl
      have := hp.length_eq
      rw [List.eq_nil_of_sublist_nil hsub] at this
      simp at this
    exact_mod_cast List.length_pos_iff.mpr this
  have hsum : 4 * (inliers.map fun p => (p.y - my) ^ 2 + (p.z - mz) ^ 2).sum = minDistOf inliers ^ 2 * inliers.length := by
    rw [hm, spreadAbout]
    field_simp
  have key : 3 * minDistOf inliers ^ 2 ≤ 3 * (inliers.map fun p => (p.y - my) ^ 2 + (p.z - mz) ^ 2).sum := by
    nlinarith [sq_nonneg (t.1.y + t.2.1.y + t.2.2.y - 3 * my), sq_nonneg (t.1.z + t.2.1.z + t.2.2.z - 3 * mz)]
  have : (4 : ℝ) ≤ inliers.length := by
    by_contra hc
    push Not at hc
    nlinarith
  exact_mod_cast this

/-- C212: with three inliers the search never ends, whatever is drawn. -/
theorem C212_three_endless (inliers : List (V3 ℝ)) (h3 : inliers.length ≤ 3) (hd : 0 < minDistOf inliers) (num : ℕ) (hn : 0 < num)
    (draws : List (V3 ℝ × V3 ℝ × V3 ℝ)) (hf : ∀ t ∈ draws, DrawnFrom inliers t) :
    uncertLoop num (minDistOf inliers) draws [] = none := by
  cases h : uncertLoop num (minDistOf inliers) draws [] with
  | none => rfl
  | some r =>
    obtain ⟨t, ht, hg⟩ := (C212_possible num hn inliers hd).mp ⟨draws, hf, r, h⟩
    have := C212_needs_four inliers hd t ht hg
    omega

private def square : List (V3 ℝ) := [⟨1, 1, 1⟩, ⟨1, 1, -1⟩, ⟨1, -1, 1⟩, ⟨1, -1, -1⟩]

private theorem square_dist : minDistOf square ^ 2 = 8 := by
  rw [(C212_min_dist square).2]
  norm_num [square, spreadAbout]

private theorem square_pos : 0 < minDistOf square := by
  rcases lt_or_eq_of_le (C212_min_dist square).1 with h | h
  · exact h
  · have := square_dist
    rw [← h] at this
    norm_num at this

/-- C212 is false of the corners of a square: no triple of them is good. -/
theorem C212_search_false : ¬ SearchEnds := by
  intro h
  have hna : NotAligned square := ⟨⟨1, 1, 1⟩, by simp [square], ⟨1, 1, -1⟩, by simp [square], ⟨1, -1, 1⟩, by simp [square], by norm_num⟩
  have hnd : square.Nodup := by
    norm_num [square]
  obtain ⟨t, ht, hg⟩ := (C212_possible 1 one_pos square square_pos).mp (h square 1 (by simp [square]) hnd hna)
  -- every corner is at (±1, ±1)
  have hc : ∀ p ∈ square, p.y ^ 2 = 1 ∧ p.z ^ 2 = 1 := by
    intro p hp
    simp only [square, List.mem_cons, List.not_mem_nil, or_false] at hp
    rcases hp with rfl | rfl | rfl | rfl <;> norm_num
  have hsub := ht.subset
  have m1 := hc t.1 (hsub (by simp))
  have m2 := hc t.2.1 (hsub (by simp))
  have m3 := hc t.2.2 (hsub (by simp))
  obtain ⟨g1, g2, g3, -⟩ := hg
  have q1 := pow_le_pow_left₀ square_pos.le g1 2
  have q2 := pow_le_pow_left₀ square_pos.le g2 2
  have q3 := pow_le_pow_left₀ square_pos.le g3 2
  rw [distYZ_sq, square_dist] at q1 q2 q3
  have s : ∀ a : ℝ, a ^ 2 = 1 → a = 1 ∨ a = -1 := fun a ha => by
    have : (a - 1) * (a + 1) = 0 := by linear_combination ha
    rcases mul_eq_zero.mp this with h | h
    · exact Or.inl (by linarith)
    · exact Or.inr (by linarith)
  rcases s _ m1.1 with a1 | a1 <;> rcases s _ m2.1 with a2 | a2 <;> rcases s _ m3.1 with a3 | a3 <;>
    rw [a1, a2] at q1 <;> rw [a1, a3] at q2 <;> rw [a2, a3] at q3 <;> nlinarith

/-- C212: what is written about a laser belongs to the points that are nearer to the plane than the threshold. -/
theorem C212_fit (p : PlaneObj) (threshold : ℝ) (cloud : List (V3 ℝ)) (num : ℕ) (draws : List (V3 ℝ × V3 ℝ × V3 ℝ)) (f : LaserFit)
    (hx : p.normal.x ≠ 0) (h : fitAndSave p threshold cloud num draws = .ok (some f)) :
    ∃ inliers : List (V3 ℝ), inliers.Sublist cloud ∧ (∀ q ∈ cloud, q ∈ inliers ↔ |p.normal.x * q.x + p.normal.y * q.y + p.normal.z * q.z + p.offset| < threshold) ∧
      inliers ≠ [] ∧ (f.meanXyz.x * inliers.length = (inliers.map V3.x).sum ∧ f.meanXyz.y * inliers.length = (inliers.map V3.y).sum ∧
        f.meanXyz.z * inliers.length = (inliers.map V3.z).sum) ∧
      f.meanPlane.1.x = 1 ∧ (∀ q, OnPlane f.meanPlane.1 f.meanPlane.2 q ↔ OnPlane p.normal p.offset q) ∧
      uncertLoop num (minDistOf inliers) draws [] = some f.planes := by
  classical
  unfold fitAndSave at h
  simp only at h
  split_ifs at h with h1 h2
  have h' := Except.ok.inj h
  rw [Option.map_eq_some_iff] at h'
  obtain ⟨pl, hpl, rfl⟩ := h'
  have hne : planeInliers p threshold cloud ≠ [] := fun q => h1 (by rw [q]; rfl)
  have hl : ((planeInliers p threshold cloud).length : ℝ) ≠ 0 := by exact_mod_cast h1
  refine ⟨planeInliers p threshold cloud, List.filter_sublist, ?_, hne, ?_, ?_, ?_, hpl⟩
  · intro q hq
    rw [planeInliers, List.mem_filter]
    exact ⟨fun h => of_decide_eq_true h.2, fun h => ⟨hq, decide_eq_true h⟩⟩
  · refine ⟨?_, ?_, ?_⟩ <;> · simp only [meanL, List.length_map]; field_simp
  · simp only; field_simp
  · intro q
    simp only [OnPlane]
    constructor
    · intro e
      field_simp at e
      linarith
    · intro e
      field_simp
      linarith

/-- C212: without inliers, or with one or two, there is an error. -/
theorem C212_few (p : PlaneObj) (threshold : ℝ) (cloud : List (V3 ℝ)) (num : ℕ) (draws : List (V3 ℝ × V3 ℝ × V3 ℝ)) (hn : 0 < num) :
    (∃ e, fitAndSave p threshold cloud num draws = .error e) ↔ (planeInliers p threshold cloud).length < 3 := by
  unfold fitAndSave
  simp only
  by_cases h : (planeInliers p threshold cloud).length = 0
  · rw [if_pos h]; simp [h]
  · rw [if_neg h]
    by_cases h2 : (planeInliers p threshold cloud).length < 3
    · rw [if_pos ⟨hn, h2⟩]; simp [h2]
    · rw [if_neg (fun q => h2 q.2)]; simp [h2]

/-- The hypotheses are met: a triangle with equal sides, many points in its centre. -/
example : ∃ (inliers : List (V3 ℝ)) (t : V3 ℝ × V3 ℝ × V3 ℝ), 0 < minDistOf inliers ∧ DrawnFrom inliers t ∧ GoodTriple (minDistOf inliers) t := by
  have h3 : √(3 : ℝ) ^ 2 = 3 := Real.sq_sqrt (by norm_num)
  have h3p : 0 < √(3 : ℝ) := Real.sqrt_pos.mpr (by norm_num)
  let l : List (V3 ℝ) := [⟨0, 2, 0⟩, ⟨0, -1, √3⟩, ⟨0, -1, -√3⟩, ⟨0, 0, 0⟩, ⟨0, 0, 0⟩, ⟨0, 0, 0⟩, ⟨0, 0, 0⟩, ⟨0, 0, 0⟩]
  have hl : minDistOf l ^ 2 = 6 := by
    rw [(C212_min_dist l).2]
    norm_num [l, spreadAbout, h3]
  have hp : 0 < minDistOf l := by
    rcases lt_or_eq_of_le (C212_min_dist l).1 with h | h
    · exact h
    · rw [← h] at hl; norm_num at hl
  have hle : ∀ a b : V3 ℝ, distYZ a b ^ 2 = 12 → minDistOf l ≤ distYZ a b := by
    intro a b h
    have : minDistOf l ^ 2 ≤ distYZ a b ^ 2 := by rw [hl, h]; norm_num
    exact le_of_sq_le_sq this (Real.sqrt_nonneg _)
  have d1 : distYZ ⟨0, 2, 0⟩ ⟨0, -1, √3⟩ ^ 2 = 12 := by rw [distYZ_sq]; norm_num [h3]
  have d2 : distYZ ⟨0, 2, 0⟩ ⟨0, -1, -√3⟩ ^ 2 = 12 := by rw [distYZ_sq]; norm_num [h3]
  have d3 : distYZ ⟨0, -1, √3⟩ ⟨0, -1, -√3⟩ ^ 2 = 12 := by rw [distYZ_sq]; ring_nf; rw [h3]; norm_num
  refine ⟨l, (⟨0, 2, 0⟩, ⟨0, -1, √3⟩, ⟨0, -1, -√3⟩), hp, ?_, hle _ _ d1, hle _ _ d2, hle _ _ d3, ?_⟩
  · exact ⟨_, List.Perm.refl _, by simp [l]⟩
  · have e : distYZ ⟨0, 2, 0⟩ ⟨0, -1, √3⟩ * distYZ ⟨0, 2, 0⟩ ⟨0, -1, -√3⟩ ≤ 12 := by
      nlinarith [sq_nonneg (distYZ ⟨0, 2, 0⟩ ⟨0, -1, √3⟩ - distYZ ⟨0, 2, 0⟩ ⟨0, -1, -√3⟩)]
    have hs : 1733 / 1000 ≥ √(3 : ℝ) := by
      rw [ge_iff_le, Real.sqrt_le_left (by norm_num)]; norm_num
    have hs2 : 1732 / 1000 ≤ √(3 : ℝ) := Real.le_sqrt_of_sq_le (by norm_num)
    refine le_trans (b := 6 * √3) (by nlinarith) ?_
    simp only
    rw [le_abs]
    left
    nlinarith

end Oplab.Props
