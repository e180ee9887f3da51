import Mathlib.Analysis.SpecialFunctions.Trigonometric.Basic
import Mathlib.Tactic.NormNum
import Mathlib.Tactic.Ring
import Mathlib.Tactic.Linarith
import Mathlib.Tactic.LinearCombination
import Verif.Spec.UsblMove
import Verif.Props.Usbl

set_option linter.unusedSectionVars false

/-! Properties C284 and C285: the USBL filter for a dive carried elsewhere and for more permissive settings. -/

namespace Oplab.Props
open Oplab Oplab.Spec

private theorem dist_map {α β} {near : α → α → Bool} {near' : β → β → Bool} (f : α → β)
    (h : ∀ a b, near' (f a) (f b) = near a b) (us : List α) (i : Nat) (n : Int) :
    distLoop near' (us.map f) i n = (distLoop near us i n).map f := by
  fun_induction distLoop near us i n with
  | case1 i n h1 a b ha hb hn ho ih =>
    rw [distLoop, dif_pos (by simpa using h1), List.getElem?_map, List.getElem?_map, ha, hb]
    simp only [Option.map_some, h, hn, if_true]
    rw [dif_pos ho, ih, List.map_cons]
  | case2 i n h1 a b ha hb hn ho ih =>
    rw [distLoop, dif_pos (by simpa using h1), List.getElem?_map, List.getElem?_map, ha, hb]
    simp only [Option.map_some, h, hn, if_true]
    rw [dif_neg ho, ih]
  | case3 i n h1 a b ha hb hn ih =>
    rw [distLoop, dif_pos (by simpa using h1), List.getElem?_map, List.getElem?_map, ha, hb]
    simp only [Option.map_some, h]
    rw [if_neg hn, ih]
  | case4 i n h1 hx =>
    rw [distLoop, dif_pos (by simpa using h1), List.getElem?_map, List.getElem?_map]
    cases ha : us[i]? with
    | none => rfl
    | some a =>
      cases hb : us[((i : Int) + n).toNat]? with
      | none => rfl
      | some b => exact (hx a b ha hb).elim
  | case5 i n h1 =>
    rw [distLoop, dif_neg (by simpa using h1)]; rfl

private theorem near_carried (sigma vmax θ a b d s : ℝ) (u v : UsblFix ℝ) :
    distanceFilter sigma vmax (carriedFix θ a b d s u) (carriedFix θ a b d s v) = distanceFilter sigma vmax u v := by
  have h := Real.sin_sq_add_cos_sq θ
  have e : (Real.cos θ * u.north - Real.sin θ * u.east + a - (Real.cos θ * v.north - Real.sin θ * v.east + a)) ^ 2
      + (Real.sin θ * u.north + Real.cos θ * u.east + b - (Real.sin θ * v.north + Real.cos θ * v.east + b)) ^ 2
      = (u.north - v.north) ^ 2 + (u.east - v.east) ^ 2 := by
    linear_combination ((u.north - v.north) ^ 2 + (u.east - v.east) ^ 2) * h
  simp only [distanceFilter, carriedFix, e]
  simp only [add_sub_add_right_eq_sub]

private theorem seek_carried (ds : List (DepthSample ℝ)) (d s t : ℝ) : ∀ (fuel j : Nat),
    depthSeek (ds.map (carriedDepth d s)) (t + s) fuel j = depthSeek ds t fuel j
  | 0, _ => rfl
  | fuel + 1, j => by
    simp only [depthSeek, List.length_map, List.getElem?_map]
    cases ds[j]? with
    | none => rfl
    | some x => simp only [Option.map_some, carriedDepth, add_lt_add_iff_right, seek_carried ds d s t fuel (j + 1)]

private theorem interp_carried (ds : List (DepthSample ℝ)) (θ a b d s : ℝ) : ∀ (us : List (UsblFix ℝ)) (j : Nat),
    depthInterp (ds.map (carriedDepth d s)) j (us.map (carriedFix θ a b d s))
      = (depthInterp ds j us).map fun p => (p.1 + d, p.2)
  | [], _ => rfl
  | u :: us, j => by
    have e : (carriedFix θ a b d s u).t = u.t + s := rfl
    simp only [List.map_cons, depthInterp, List.length_map, e, seek_carried, interp_carried ds θ a b d s us,
      List.getElem?_map]
    split
    · cases ds[depthSeek ds u.t ds.length j - 1]? with
      | none => rfl
      | some x =>
        cases ds[depthSeek ds u.t ds.length j]? with
        | none => rfl
        | some y =>
          simp only [Option.map_some, List.map_cons, carriedDepth, interpolate, add_left_inj,
            add_sub_add_right_eq_sub, List.cons.injEq, Prod.mk.injEq, and_true]
          split
          · rfl
          · ring
    · rfl

private theorem depth_carried (ds : List (DepthSample ℝ)) (sigma θ a b d s : ℝ) (us : List (UsblFix ℝ)) :
    usblDepthFiltered (ds.map (carriedDepth d s)) sigma (us.map (carriedFix θ a b d s))
      = (usblDepthFiltered ds sigma us).map (carriedFix θ a b d s) := by
  simp only [usblDepthFiltered, interp_carried, List.zip_map, List.filter_map, List.map_map]
  congr 1
  apply List.filter_congr
  intro p _
  simp only [Function.comp, Prod.map, depthFilter, carriedFix, add_sub_add_right_eq_sub]

private theorem timed_carried (f l : DepthSample ℝ) (θ a b d s : ℝ) (us : List (UsblFix ℝ)) :
    (us.map (carriedFix θ a b d s)).filter (usblTimeOk (carriedDepth d s f) (carriedDepth d s l))
      = (us.filter (usblTimeOk f l)).map (carriedFix θ a b d s) := by
  rw [List.filter_map]
  congr 1
  apply List.filter_congr
  intro u _
  simp only [Function.comp, usblTimeOk, carriedFix, carriedDepth]
  have e1 : u.t + s < f.t + s + 1 ↔ u.t < f.t + 1 := by constructor <;> intro h <;> linarith
  have e2 : u.t + s + 1 > l.t + s ↔ u.t + 1 > l.t := by constructor <;> intro h <;> linarith
  simp only [e1, e2]

/-- C284: in a dive carried elsewhere the filter keeps the same fixes, whatever filters are switched on. -/
theorem C284_carried (sigma vmax θ a b d s : ℝ) (ne df : Bool) (us : List (UsblFix ℝ)) (ds : List (DepthSample ℝ)) :
    usblFilter (distanceFilter sigma vmax) sigma ne df (us.map (carriedFix θ a b d s)) (ds.map (carriedDepth d s))
      = ((usblFilter (distanceFilter sigma vmax) sigma ne df us ds).1.map (carriedFix θ a b d s),
        (usblFilter (distanceFilter sigma vmax) sigma ne df us ds).2.map (carriedFix θ a b d s)) := by
  simp only [usblFilter, List.head?_map, List.getLast?_map]
  cases ds.head? with
  | none => rfl
  | some f =>
    cases ds.getLast? with
    | none => rfl
    | some l =>
      simp only [Option.map_some, timed_carried]
      cases df <;> cases ne <;>
        simp [depth_carried, dist_map _ (near_carried sigma vmax θ a b d s)]

/-- C285 (partial): allowing the vehicle to go faster never loses a fix. Missing: the factor (false, see below). -/
theorem C285_faster_partial (sigma v v' : ℝ) (hs : 0 ≤ sigma) (hv : v ≤ v') (ne df : Bool) (us : List (UsblFix ℝ))
    (ds : List (DepthSample ℝ)) : (keptFixes sigma v ne df us ds).Sublist (keptFixes sigma v' ne df us ds) := by
  have hn : ∀ x y, distanceFilter sigma v x y = true → distanceFilter sigma v' x y = true := by
    intro x y h
    simp only [distanceFilter, decide_eq_true_eq] at h ⊢
    refine h.trans (mul_le_mul_of_nonneg_left ?_ hs)
    have := mul_le_mul_of_nonneg_left hv (abs_nonneg (x.t - y.t))
    linarith
  simp only [keptFixes, usblFilter]
  cases ds.head? with
  | none => exact List.Sublist.refl _
  | some f =>
    cases ds.getLast? with
    | none => exact List.Sublist.refl _
    | some l =>
      cases ne
      · exact List.Sublist.refl _
      · exact distLoop_mono _ hn _ 2 (Nat.le_add_left _ _) (le_refl _)

/-- C285 (partial): with the distance filter switched off a larger factor never loses a fix. -/
theorem C285_factor_partial (sigma sigma' vmax vmax' : ℝ) (hs : sigma ≤ sigma') (df : Bool)
    (us : List (UsblFix ℝ)) (ds : List (DepthSample ℝ)) :
    (keptFixes sigma vmax false df us ds).Sublist (keptFixes sigma' vmax' false df us ds) := by
  simp only [keptFixes, usblFilter]
  cases ds.head? with
  | none => exact List.Sublist.refl _
  | some f =>
    cases ds.getLast? with
    | none => exact List.Sublist.refl _
    | some l =>
      cases df
      · exact List.Sublist.refl _
      · simp only [if_true, Bool.false_eq_true, if_false, usblDepthFiltered]
        refine (List.monotone_filter_right _ ?_).map _
        intro p h
        simp only [depthFilter, decide_eq_true_eq] at h ⊢
        exact h.trans (mul_le_mul_of_nonneg_right hs (add_nonneg (abs_nonneg _) (abs_nonneg _)))

private noncomputable def good (t : ℝ) : UsblFix ℝ := ⟨t, 0, 0, 0, 0, 0, 0⟩
private noncomputable def bad : UsblFix ℝ := ⟨9 / 2, 1000, 0, 0, 0, 3 / 2, 0⟩
private noncomputable def sixFixes : List (UsblFix ℝ) := [good 1, good 2, good 3, good 4, bad, good 5]
private noncomputable def record : List (DepthSample ℝ) := [⟨0, 0, 1⟩, ⟨10, 0, 1⟩]

private theorem timed_six : sixFixes.filter (usblTimeOk ⟨0, 0, 1⟩ ⟨10, 0, 1⟩) = sixFixes := by
  norm_num [sixFixes, good, bad, usblTimeOk]

private theorem kept_one : keptFixes 1 0 true true sixFixes record = [good 3] := by
  have e : usblDepthFiltered record 1 sixFixes = [good 1, good 2, good 3, good 4, good 5] := by
    norm_num [usblDepthFiltered, record, sixFixes, good, bad, depthInterp, depthSeek, depthFilter, interpolate, abs_of_pos]
  simp only [keptFixes, usblFilter, record, List.head?_cons, List.getLast?_cons_cons, List.getLast?_singleton, if_true,
    timed_six]
  rw [show ([⟨0, 0, 1⟩, ⟨10, 0, 1⟩] : List (DepthSample ℝ)) = record from rfl, e]
  have hn : ∀ s t : ℝ, distanceFilter 1 0 (good s) (good t) = true := by
    intro s t; simp [distanceFilter, good]
  simp [distLoop, nextOffset, hn]

private theorem kept_two : keptFixes 2 0 true true sixFixes record = [] := by
  have e : usblDepthFiltered record 2 sixFixes = sixFixes := by
    norm_num [usblDepthFiltered, record, sixFixes, good, bad, depthInterp, depthSeek, depthFilter, interpolate, abs_of_pos]
  simp only [keptFixes, usblFilter, record, List.head?_cons, List.getLast?_cons_cons, List.getLast?_singleton, if_true,
    timed_six]
  rw [show ([⟨0, 0, 1⟩, ⟨10, 0, 1⟩] : List (DepthSample ℝ)) = record from rfl, e]
  have hn : ∀ s t : ℝ, distanceFilter 2 0 (good s) (good t) = true := by
    intro s t; simp [distanceFilter, good]
  have hb : ∀ s : ℝ, distanceFilter 2 0 (good s) bad = false := by
    intro s
    simp [distanceFilter, good, bad]
  simp [distLoop, nextOffset, hn, hb, sixFixes]

/-- C285 is false of the factor: a larger factor can let a wrong fix through the depth filter, and the distance filter then
drops a right one because of it. -/
theorem C285_factor_false : ¬ LargerFactorKeeps := by
  intro h
  have := h 0 1 2 sixFixes record (good 3) (le_refl _) zero_le_one one_le_two (by rw [kept_one]; simp)
  rw [kept_two] at this
  simp at this

/-- A dive of which one fix is kept meets the conditions of C284 and C285: the fix is kept in the dive carried elsewhere. -/
example : keptFixes 1 0 true true (sixFixes.map (carriedFix 1 2 3 4 5)) (record.map (carriedDepth 4 5))
    = [carriedFix 1 2 3 4 5 (good 3)] := by
  have h := C284_carried 1 0 1 2 3 4 5 true true sixFixes record
  have k := kept_one
  simp only [keptFixes] at k ⊢
  rw [h, k]
  rfl

example : (keptFixes 1 7 true true sixFixes record) ≠ [] := fun h => by
  have := C285_faster_partial 1 0 7 zero_le_one (by norm_num) true true sixFixes record
  rw [kept_one, h] at this
  simp at this

end Oplab.Props
