import Verif.Spec.RelativePose
import Mathlib.Tactic.Linarith
import Mathlib.Tactic.NormNum
import Mathlib.Tactic.Ring
import Mathlib.Tactic.Abel
import Mathlib.LinearAlgebra.Matrix.DotProduct

/-!
C206: relative uncertainties of poses.
-/

namespace Oplab.Props
open Oplab Oplab.Spec Matrix

private theorem addCovariance_eq {P : Type} (c : PoseCov) (l : List (String × P × PoseCov)) :
    addCovariance c l = l.map fun x => (x.1, x.2.1, x.2.2 + c) := by
  induction l with
  | nil => rfl
  | cons a l ih => simp only [addCovariance, ih, List.map_cons]

/-- C206: the files are those of the third camera; by subtraction, the covariance of the first image is zero and that of
each other one is the sum of its own and that of the first; poses and names are those of the states that were loaded;
there are as many images in the other file. -/
theorem C206_written {P : Type} (cameras : List String) (first last : String)
    (file : String → Res (List (String × P × ℝ) × List (String × PoseCov))) (initialCov : KMat) (images : List (ℝ × String))
    (filter : RelativeInput P → List (ℝ × P × PoseCov)) (out : RelativeFiles P)
    (h : relativeRun cameras first last file initialCov images filter = .ok out) :
    ∃ a b c more, cameras = a :: b :: c :: more ∧ ∃ poses covs, file ("auv_ekf_" ++ c ++ "_laser_at_dvl.csv") = .ok (poses, covs) ∧
      ∃ s ss, loadStates first last poses covs = .ok (s :: ss) ∧
        out.subtractionName = "auv_ekf_cov_based_on_subtraction_" ++ c ++ "_laser_at_dvl" ∧
        out.propagationName = "auv_ekf_cov_based_on_ekf_propagation_" ++ c ++ "_laser_at_dvl" ∧
        out.subtraction = (s.1, s.2.1.1, 0) :: ss.map (fun x => (x.1, x.2.1.1, s.2.2 + x.2.2)) ∧
        out.propagation.length = out.subtraction.length := by
  match cameras, h with
  | [], h => cases h
  | [_], h => cases h
  | [_, _], h => cases h
  | a :: b :: c :: more, h =>
    refine ⟨a, b, c, more, rfl, ?_⟩
    unfold relativeRun at h
    have hp : pyGet (a :: b :: c :: more) 2 = .ok c := rfl
    rw [hp] at h
    simp only [bind, Except.bind] at h
    cases hf : file ("auv_ekf_" ++ c ++ "_laser_at_dvl.csv") with
    | error e => rw [hf] at h; cases h
    | ok f =>
      rw [hf] at h
      simp only at h
      refine ⟨f.1, f.2, rfl, ?_⟩
      cases hl : loadStates first last f.1 f.2 with
      | error e => rw [hl] at h; cases h
      | ok states =>
        rw [hl] at h
        simp only at h
        cases states with
        | nil => cases h
        | cons s ss =>
          cases hc : cropImages first last false images with
          | nil => rw [hc] at h; cases h
          | cons i is =>
            rw [hc] at h
            simp only at h
            split_ifs at h with hlen
            simp only [subtractFirst, List.map_cons, relativeNames, Except.ok.injEq] at h
            subst h
            refine ⟨s, ss, rfl, rfl, rfl, ?_, ?_⟩
            · simp only [addCovariance_eq, List.map_map]
              congr 1
              apply List.map_congr_left
              intro x _
              simp only [Function.comp, add_comm]
            · simp only [addCovariance_eq, List.length_map, List.length_cons]
              exact not_not.mp hlen

/-- C206: the other file has, for the selected images, what the filter gives when it starts a microsecond before the first loaded state, at
its pose, with the covariance of the position and attitude set to zero, and runs up to the last one. -/
theorem C206_propagation {P : Type} (cameras : List String) (first last : String)
    (file : String → Res (List (String × P × ℝ) × List (String × PoseCov))) (initialCov : KMat) (images : List (ℝ × String))
    (filter : RelativeInput P → List (ℝ × P × PoseCov)) (out : RelativeFiles P)
    (h : relativeRun cameras first last file initialCov images filter = .ok out) :
    ∃ c poses covs s ss, cameras[2]? = some c ∧ file ("auv_ekf_" ++ c ++ "_laser_at_dvl.csv") = .ok (poses, covs) ∧
      loadStates first last poses covs = .ok (s :: ss) ∧
      out.propagation = (updateCameraList id (cropImages first last false images)
        (filter ⟨s.2.1.1, s.2.1.2 - 1 / 1000000, zeroPosePart initialCov, ((s :: ss).getLast (by simp)).2.1.2⟩)).map
          fun x => (x.2, x.1.1, x.1.2) := by
  match cameras, h with
  | [], h => cases h
  | [_], h => cases h
  | [_, _], h => cases h
  | a :: b :: c :: more, h =>
    unfold relativeRun at h
    have hp : pyGet (a :: b :: c :: more) 2 = .ok c := rfl
    rw [hp] at h
    simp only [bind, Except.bind] at h
    cases hf : file ("auv_ekf_" ++ c ++ "_laser_at_dvl.csv") with
    | error e => rw [hf] at h; cases h
    | ok f =>
      rw [hf] at h
      simp only at h
      cases hl : loadStates first last f.1 f.2 with
      | error e => rw [hl] at h; cases h
      | ok states =>
        rw [hl] at h
        simp only at h
        cases states with
        | nil => cases h
        | cons s ss =>
          cases hc : cropImages first last false images with
          | nil => rw [hc] at h; cases h
          | cons i is =>
            rw [hc] at h
            simp only at h
            split_ifs at h with hlen
            simp only [subtractFirst, List.map_cons, relativeNames, Except.ok.injEq] at h
            subst h
            refine ⟨c, f.1, f.2, s, ss, rfl, hf, hl, ?_⟩
            have e : ss.getLast?.getD s = (s :: ss).getLast (by simp) := by
              cases ss with
              | nil => rfl
              | cons x ss => simp [List.getLast?_eq_some_getLast]
            rw [e]

private theorem quad_add {n : Type} [Fintype n] (A B : Matrix n n ℝ) (v : n → ℝ) :
    v ⬝ᵥ ((A + B) *ᵥ v) = v ⬝ᵥ (A *ᵥ v) + v ⬝ᵥ (B *ᵥ v) := by rw [add_mulVec, dotProduct_add]

private theorem quad_sub {n : Type} [Fintype n] (A B : Matrix n n ℝ) (v : n → ℝ) :
    v ⬝ᵥ ((A - B) *ᵥ v) = v ⬝ᵥ (A *ᵥ v) - v ⬝ᵥ (B *ᵥ v) := by rw [sub_mulVec, dotProduct_sub]

private theorem quad_transpose {n : Type} [Fintype n] (B : Matrix n n ℝ) (v : n → ℝ) : v ⬝ᵥ (Bᵀ *ᵥ v) = v ⬝ᵥ (B *ᵥ v) := by
  rw [mulVec_transpose, dotProduct_comm, ← dotProduct_mulVec]

/-- C206: what is written are covariances if what was loaded are. -/
theorem C206_covariances {P : Type} (states out : List (String × P × PoseCov)) (h : ∀ s ∈ states, IsCov s.2.2)
    (ho : subtractFirst states = .ok out) : ∀ s ∈ out, IsCov s.2.2 := by
  cases states with
  | nil => cases ho
  | cons s ss =>
    simp only [subtractFirst, addCovariance_eq, Except.ok.injEq] at ho
    subst ho
    intro x hx
    rcases List.mem_cons.mp hx with rfl | hx
    · exact ⟨transpose_zero, fun v => by rw [zero_mulVec, dotProduct_zero]⟩
    · obtain ⟨y, hy, rfl⟩ := List.mem_map.mp hx
      have h1 := h s List.mem_cons_self
      have h2 := h y (List.mem_cons_of_mem _ hy)
      refine ⟨by rw [transpose_add, h1.1, h2.1], fun v => ?_⟩
      simp only
      rw [quad_add]
      linarith [h1.2 v, h2.2 v]

/-- C206: no matter how the errors of the two poses depend on each other, the true relative uncertainty is at most twice the
reported one (as a variance, in every direction). -/
theorem C206_twice (C₀ C B : PoseCov) (h : Joint C₀ C B) : CovLe (relativeCov C₀ C B) ((2 : ℝ) • (C + C₀)) := by
  intro v
  have hj := h.2 (Sum.elim v v)
  rw [fromBlocks_mulVec] at hj
  simp only [Sum.elim_comp_inl, Sum.elim_comp_inr, dotProduct, Fintype.sum_sum_type, Sum.elim_inl, Sum.elim_inr] at hj
  have hj' : 0 ≤ v ⬝ᵥ (C₀ *ᵥ v + B *ᵥ v) + v ⬝ᵥ (Bᵀ *ᵥ v + C *ᵥ v) := hj
  rw [dotProduct_add, dotProduct_add] at hj'
  unfold relativeCov
  rw [quad_add, quad_sub, quad_sub, smul_mulVec, dotProduct_smul, quad_add, smul_eq_mul]
  linarith

/-- C206: the reported relative uncertainty is the true one exactly if the errors of the poses are uncorrelated in each
direction, and not below it exactly if they are nowhere negatively correlated. -/
theorem C206_exact_partial (C₀ C B : PoseCov) :
    (CovLe (relativeCov C₀ C B) (C + C₀) ↔ ∀ v, 0 ≤ v ⬝ᵥ (B *ᵥ v)) ∧
      ((∀ v, v ⬝ᵥ (relativeCov C₀ C B *ᵥ v) = v ⬝ᵥ ((C + C₀) *ᵥ v)) ↔ ∀ v, v ⬝ᵥ (B *ᵥ v) = 0) := by
  have key : ∀ v, v ⬝ᵥ (relativeCov C₀ C B *ᵥ v) = v ⬝ᵥ ((C + C₀) *ᵥ v) - 2 * (v ⬝ᵥ (B *ᵥ v)) := by
    intro v
    unfold relativeCov
    rw [quad_add, quad_sub, quad_sub, quad_add, quad_transpose]
    ring
  constructor
  · constructor
    · intro h v
      have := h v
      rw [key] at this
      linarith
    · intro h v
      rw [key]
      linarith [h v]
  · constructor
    · intro h v
      have := h v
      rw [key] at this
      linarith
    · intro h v
      rw [key, h v]
      ring

/-- Errors that are opposite: the joint covariance of `x` and `-x`. -/
private theorem opposite : Joint 1 1 (-1) := by
  refine ⟨?_, fun v => ?_⟩
  · rw [fromBlocks_transpose]
    simp
  · obtain ⟨a, b, rfl⟩ : ∃ a b : Fin 6 → ℝ, v = Sum.elim a b := ⟨v ∘ Sum.inl, v ∘ Sum.inr, (Sum.elim_comp_inl_inr v).symm⟩
    rw [fromBlocks_mulVec]
    have e : (Sum.elim a b) ⬝ᵥ (Sum.elim ((1 : PoseCov) *ᵥ a + (-1 : PoseCov) *ᵥ b) ((-1 : PoseCov)ᵀ *ᵥ a + (1 : PoseCov) *ᵥ b)) =
        (a - b) ⬝ᵥ (a - b) := by
      simp only [transpose_neg, transpose_one, one_mulVec, neg_mulVec, sumElim_dotProduct_sumElim, dotProduct_add, dotProduct_neg,
        sub_dotProduct, dotProduct_sub]
      rw [dotProduct_comm b a]
      ring
    simp only [Sum.elim_comp_inl, Sum.elim_comp_inr]
    rw [e]
    exact Finset.sum_nonneg fun i _ => mul_self_nonneg _

/-- The hypothesis of `C206_twice` is met, with equality of its two sides. -/
example : Joint 1 1 (-1) ∧ relativeCov 1 1 (-1) = (2 : ℝ) • (1 + 1) := by
  refine ⟨opposite, ?_⟩
  unfold relativeCov
  rw [transpose_neg, transpose_one, two_smul]
  abel

/-- C206: not in general: opposite errors. -/
theorem C206_understated_false : ¬ RelativeNotUnderstated := by
  intro h
  obtain ⟨R, h1, h2⟩ := h "a" "b" 1 1 (-1) [] _ opposite rfl
  simp only [addCovariance, List.getElem?_cons_succ, List.getElem?_cons_zero, Option.some.injEq, Prod.mk.injEq, true_and] at h1
  subst h1
  have := (C206_exact_partial 1 1 (-1)).1.mp h2 (fun _ => 1)
  rw [neg_mulVec, one_mulVec, dotProduct_neg] at this
  norm_num [dotProduct] at this

/-- C206: with two cameras nothing is computed, although names of the files for this case are prepared: the program ends
with an error, for every input. -/
theorem C206_two_false : ¬ RelativeForTwo := by
  rintro ⟨a, b, first, last, file, C, images, filter, out, h⟩
  cases h

/-- C206: the covariance with which the filter starts is one if that of the settings is and poses are independent of speeds
in it; there is no uncertainty of the pose. -/
theorem C206_start (C : KMat) (h : IsCov C) (hb : ∀ i j : Ix, i.val < 6 → ¬ j.val < 6 → C i j = 0 ∧ C j i = 0) :
    IsCov (zeroPosePart C) ∧ ∀ i j : Ix, i.val < 6 → j.val < 6 → zeroPosePart C i j = 0 := by
  refine ⟨⟨?_, fun v => ?_⟩, fun i j hi hj => if_pos ⟨hi, hj⟩⟩
  · ext i j
    have hs : C j i = C i j := congrFun (congrFun h.1 i) j
    show (if j.val < 6 ∧ i.val < 6 then 0 else C j i) = if i.val < 6 ∧ j.val < 6 then 0 else C i j
    by_cases hi : i.val < 6 <;> by_cases hj : j.val < 6 <;> simp [hi, hj, hs]
  · have e : v ⬝ᵥ (zeroPosePart C *ᵥ v) = (fun i : Ix => if i.val < 6 then 0 else v i) ⬝ᵥ (C *ᵥ fun i : Ix => if i.val < 6 then 0 else v i) := by
      simp only [dotProduct, mulVec, Finset.mul_sum]
      apply Finset.sum_congr rfl
      intro i _
      apply Finset.sum_congr rfl
      intro j _
      unfold zeroPosePart
      by_cases hi : i.val < 6 <;> by_cases hj : j.val < 6
      · simp [hi, hj]
      · simp [hi, hj, (hb i j hi hj).1]
      · simp [hi, hj, (hb j i hj hi).2]
      · simp [hi, hj]
    rw [e]
    exact h.2 _

/-- A run with three cameras and two images. -/
example : ∃ out, relativeRun (P := Unit) ["l", "r", "laser"] "i1" "i2"
    (fun _ => .ok ([("i0", (), 0), ("i1", (), 1), ("i2", (), 2), ("i3", (), 3)], [("i0", 0), ("i1", 1), ("i2", 1), ("i3", 1)])) 1
    [(0, "i0"), (1, "i1"), (2, "i2"), (3, "i3")] (fun _ => [(1, (), 0), (2, (), 1)]) = .ok out := by
  have h1 : loadStates "i1" "i2" [("i0", ((), (0 : ℝ))), ("i1", (), 1), ("i2", (), 2), ("i3", (), 3)]
      [("i0", (0 : PoseCov)), ("i1", 1), ("i2", 1), ("i3", 1)] = .ok [("i1", ((), 1), 1), ("i2", ((), 2), 1)] := by
    rfl
  have h2 : cropImages "i1" "i2" false [((0 : ℝ), "i0"), (1, "i1"), (2, "i2"), (3, "i3")] = [(1, "i1"), (2, "i2")] := by
    rfl
  have h3 : updateCameraList id [((1 : ℝ), "i1"), (2, "i2")] [((1 : ℝ), (), (0 : PoseCov)), (2, (), 1)] =
      [(((), 0), "i1"), (((), 1), "i2")] := by
    simp [updateCameraList]
  unfold relativeRun
  simp only [pyGet, bind, Except.bind, h1, h2, h3]
  simp [subtractFirst, relativeNames]

end Oplab.Props
