import Mathlib.Algebra.Order.Field.Rat
import Mathlib.Analysis.Complex.Norm
import Mathlib.Tactic.NormNum
import Mathlib.Tactic.Ring
import Mathlib.Tactic.Linarith
import Mathlib.Tactic.FieldSimp
import Verif.Spec.Lines
import Verif.Model.Usbl

set_option linter.unusedSectionVars false

/-! Property C28: the USBL filter. -/

namespace Oplab.Props
open Oplab Oplab.Spec

section
variable {K : Type} [Field K] [LinearOrder K] [IsStrictOrderedRing K]

/-- Depth and standard deviation of the depth sensor at time `t`, by linear interpolation. -/
def DepthAt (ds : List (DepthSample K)) (t d s : K) : Prop :=
  ∃ i a b, ds[i]? = some a ∧ ds[i + 1]? = some b ∧ a.t ≤ t ∧ t ≤ b.t ∧
    OnLine a.t a.depth b.t b.depth t d ∧ OnLine a.t a.std b.t b.std t s

/-- The fix lies at least one second inside the time span of the depth record. -/
def InsideDepthRecord (ds : List (DepthSample K)) (u : UsblFix K) : Prop :=
  ∃ first last, ds.head? = some first ∧ ds.getLast? = some last ∧ first.t + 1 ≤ u.t ∧ u.t + 1 ≤ last.t

/-- The depth of the fix agrees with the depth sensor within `sigma` times the two standard deviations. -/
def DepthAgrees (ds : List (DepthSample K)) (sigma : K) (u : UsblFix K) : Prop :=
  ∃ d s, DepthAt ds u.t d s ∧ |u.depth - d| ≤ sigma * (|u.depthStd| + |s|)

private theorem on_line_unique {t1 y1 t2 y2 t y y' : K} (h : t1 < t2) (h1 : OnLine t1 y1 t2 y2 t y)
    (h2 : OnLine t1 y1 t2 y2 t y') : y = y' := by
  have hne : t2 - t1 ≠ 0 := sub_ne_zero.mpr h.ne'
  have : (y - y1) * (t2 - t1) = (y' - y1) * (t2 - t1) := h1.trans h2.symm
  have := mul_right_cancel₀ hne this
  linarith

private theorem on_line_right {t1 y1 t2 y2 y : K} (h : t1 < t2) (h1 : OnLine t1 y1 t2 y2 t2 y) : y = y2 := by
  apply on_line_unique h h1
  simp [OnLine]

private theorem on_line_left {t1 y1 t2 y2 y : K} (h : t1 < t2) (h1 : OnLine t1 y1 t2 y2 t1 y) : y = y1 := by
  apply on_line_unique h h1
  simp [OnLine]

private theorem pw {ds : List (DepthSample K)} (hs : ds.Pairwise fun a b => a.t < b.t) {i j : Nat} {a b : DepthSample K}
    (hi : ds[i]? = some a) (hj : ds[j]? = some b) (h : i < j) : a.t < b.t := by
  obtain ⟨h1, rfl⟩ := List.getElem?_eq_some_iff.mp hi
  obtain ⟨h2, rfl⟩ := List.getElem?_eq_some_iff.mp hj
  exact List.pairwise_iff_getElem.mp hs i j h1 h2 h

private theorem depth_unique_lt (ds : List (DepthSample K)) (hs : ds.Pairwise fun a b => a.t < b.t) {t d s d' s' : K}
    {i i' : Nat} {a b a' b' : DepthSample K} (hi : i < i')
    (h1 : ds[i]? = some a) (h2 : ds[i + 1]? = some b) (h4 : t ≤ b.t)
    (h5 : OnLine a.t a.depth b.t b.depth t d) (h6 : OnLine a.t a.std b.t b.std t s)
    (g1 : ds[i']? = some a') (g2 : ds[i' + 1]? = some b') (g3 : a'.t ≤ t)
    (g5 : OnLine a'.t a'.depth b'.t b'.depth t d') (g6 : OnLine a'.t a'.std b'.t b'.std t s') : d = d' ∧ s = s' := by
  have hab := pw hs h1 h2 (by omega)
  have hab' := pw hs g1 g2 (by omega)
  rcases Nat.lt_or_ge (i + 1) i' with h | h
  · have := pw hs h2 g1 h
    linarith
  · have hii : i' = i + 1 := by omega
    subst hii
    rw [h2] at g1
    have hba : b = a' := Option.some.inj g1
    subst hba
    have ht : t = b.t := le_antisymm h4 g3
    subst ht
    exact ⟨(on_line_right hab h5).trans (on_line_left hab' g5).symm, (on_line_right hab h6).trans (on_line_left hab' g6).symm⟩

private theorem depth_unique (ds : List (DepthSample K)) (hs : ds.Pairwise fun a b => a.t < b.t) {t d s d' s' : K}
    (h : DepthAt ds t d s) (h' : DepthAt ds t d' s') : d = d' ∧ s = s' := by
  obtain ⟨i, a, b, h1, h2, h3, h4, h5, h6⟩ := h
  obtain ⟨i', a', b', g1, g2, g3, g4, g5, g6⟩ := h'
  rcases Nat.lt_trichotomy i i' with hi | hi | hi
  · exact depth_unique_lt ds hs hi h1 h2 h4 h5 h6 g1 g2 g3 g5 g6
  · subst hi
    rw [h1] at g1; rw [h2] at g2
    obtain rfl := Option.some.inj g1
    obtain rfl := Option.some.inj g2
    have hab := pw hs h1 h2 (by omega)
    exact ⟨on_line_unique hab h5 g5, on_line_unique hab h6 g6⟩
  · have := depth_unique_lt ds hs hi g1 g2 g4 g5 g6 h1 h2 h3 h5 h6
    exact ⟨this.1.symm, this.2.symm⟩

private theorem depth_seek (ds : List (DepthSample K)) (t : K) : ∀ (fuel j : Nat), ds.length ≤ j + fuel →
    (∀ i d, i < j → ds[i]? = some d → d.t < t) → j < ds.length →
    (∀ i d, i < depthSeek ds t fuel j → ds[i]? = some d → d.t < t) ∧ depthSeek ds t fuel j < ds.length ∧
    (ds.length ≤ depthSeek ds t fuel j + 1 ∨ ∃ d, ds[depthSeek ds t fuel j]? = some d ∧ t ≤ d.t)
  | 0, j, hf, hb, hj => by simp only [depthSeek]; omega
  | fuel + 1, j, hf, hb, hj => by
    simp only [depthSeek]
    by_cases h1 : j + 1 < ds.length
    · rw [if_pos h1, List.getElem?_eq_getElem hj]
      simp only
      by_cases h2 : ds[j].t < t
      · rw [if_pos h2]
        refine depth_seek ds t fuel (j + 1) (by omega) ?_ h1
        intro i s hi hs
        rcases Nat.lt_or_ge i j with h | h
        · exact hb i s h hs
        · have : i = j := by omega
          subst this
          rw [List.getElem?_eq_getElem hj] at hs
          simp at hs; subst hs; exact h2
      · rw [if_neg h2]
        exact ⟨hb, hj, .inr ⟨ds[j], List.getElem?_eq_getElem hj, not_lt.mp h2⟩⟩
    · rw [if_neg h1]; exact ⟨hb, hj, .inl (by omega)⟩

private theorem interp_on_line {t a b ya yb : K} (h : a ≠ b) : OnLine a ya b yb t (interpolate t a b ya yb) := by
  have hsub : b - a ≠ 0 := sub_ne_zero.mpr h.symm
  simp only [interpolate, if_neg h.symm, OnLine]
  field_simp
  ring

private theorem depth_interp (ds : List (DepthSample K)) : ∀ (us : List (UsblFix K)) (j : Nat),
    us.Pairwise (fun a b => a.t ≤ b.t) → (∀ u ∈ us, InsideDepthRecord ds u) →
    (∀ u ∈ us, ∀ i d, i < j → ds[i]? = some d → d.t < u.t) → j < ds.length ∨ us = [] →
    List.Forall₂ (fun u p => DepthAt ds u.t p.1 p.2) us (depthInterp ds j us)
  | [], j, _, _, _, _ => .nil
  | u :: us, j, hp, hin, hb, hj => by
    have hj : j < ds.length := hj.resolve_right (by simp)
    obtain ⟨s1, s2, s3⟩ := depth_seek ds u.t ds.length j (by omega) (hb u (by simp)) hj
    obtain ⟨first, last, e1, e2, e3, e4⟩ := hin u (by simp)
    rw [List.pairwise_cons] at hp
    have ih := depth_interp ds us (depthSeek ds u.t ds.length j) hp.2 (fun x hx => hin x (by simp [hx]))
      (fun x hx i d hi hd => lt_of_lt_of_le (s1 i d hi hd) (hp.1 x hx)) (.inl s2)
    have hlast : ds[ds.length - 1]? = some last := by rw [← List.getLast?_eq_getElem?]; exact e2
    have hfirst : ds[0]? = some first := by rw [← List.head?_eq_getElem?]; exact e1
    set j' := depthSeek ds u.t ds.length j with hj'
    have hup : u.t ≤ (ds[j']'s2).t := by
      rcases s3 with h | ⟨d, hd, hle⟩
      · have : j' = ds.length - 1 := by omega
        have h2 : ds[j']? = some last := by rw [this]; exact hlast
        rw [List.getElem?_eq_getElem s2] at h2
        rw [Option.some.inj h2]; linarith
      · rw [List.getElem?_eq_getElem s2] at hd
        rw [Option.some.inj hd]; exact hle
    have hpos : 1 ≤ j' := by
      rcases Nat.eq_zero_or_pos j' with h | h
      · exfalso
        have h2 : ds[j']? = some first := by rw [h]; exact hfirst
        rw [List.getElem?_eq_getElem s2] at h2
        rw [Option.some.inj h2] at hup; linarith
      · exact h
    have g1 : ds[j' - 1]? = some (ds[j' - 1]'(by omega)) := List.getElem?_eq_getElem (by omega)
    have g2 : ds[j']? = some (ds[j']'s2) := List.getElem?_eq_getElem s2
    have hlow : (ds[j' - 1]'(by omega)).t < u.t := s1 (j' - 1) _ (by omega) g1
    simp only [depthInterp]
    rw [← hj', if_pos hpos, g1, g2]
    refine .cons ⟨j' - 1, _, _, g1, by rw [show j' - 1 + 1 = j' by omega]; exact g2, hlow.le, hup, ?_, ?_⟩ ih
    · exact interp_on_line (lt_of_lt_of_le hlow hup).ne
    · exact interp_on_line (lt_of_lt_of_le hlow hup).ne

private theorem zip_filter (ds : List (DepthSample K)) (hs : ds.Pairwise fun a b => a.t < b.t) (sigma : K)
    (p : UsblFix K → Bool) (hpd : ∀ u, p u = true ↔ DepthAgrees ds sigma u) :
    ∀ (us : List (UsblFix K)) (ps : List (K × K)), List.Forall₂ (fun u p => DepthAt ds u.t p.1 p.2) us ps →
    (((us.zip ps).filter fun q => depthFilter q.1 q.2.1 q.2.2 sigma).map Prod.fst) = us.filter p
  | _, _, .nil => rfl
  | u :: us, q :: ps, .cons h t => by
    have ih := zip_filter ds hs sigma p hpd us ps t
    have : depthFilter u q.1 q.2 sigma = p u := by
      rw [Bool.eq_iff_iff, hpd u]
      simp only [depthFilter, decide_eq_true_eq]
      constructor
      · intro hd; exact ⟨q.1, q.2, h, hd⟩
      · rintro ⟨d, s, hd, hle⟩
        obtain ⟨e1, e2⟩ := depth_unique ds hs h hd
        rw [e1, e2]; exact hle
    rw [List.zip_cons_cons, List.filter_cons, List.filter_cons]
    simp only [this]
    cases p u <;> simp [ih]

open Classical in
/-- C28: with the depth and distance filters on, the first returned list is exactly the fixes at least one second inside
the depth record whose depth agrees with the depth sensor, in their original order. -/
theorem C28_time_and_depth (near : UsblFix K → UsblFix K → Bool) (sigma : K) (us : List (UsblFix K))
    (ds : List (DepthSample K)) (hus : us.Pairwise fun a b => a.t ≤ b.t) (hds : ds.Pairwise fun a b => a.t < b.t) :
    (usblFilter near sigma true true us ds).1
      = us.filter fun u => decide (InsideDepthRecord ds u ∧ DepthAgrees ds sigma u) := by
  cases hd : ds with
  | nil =>
    simp only [usblFilter, List.head?_nil]
    symm
    rw [List.filter_eq_nil_iff]
    rintro u -
    simp [InsideDepthRecord]
  | cons d0 dt =>
    rw [← hd]
    have hne : ds ≠ [] := by rw [hd]; simp
    have e1 : ds.head? = some (ds.head hne) := List.head?_eq_some_head hne
    have e2 : ds.getLast? = some (ds.getLast hne) := List.getLast?_eq_some_getLast hne
    simp only [usblFilter, e1, e2, if_true]
    have htime : us.filter (usblTimeOk (ds.head hne) (ds.getLast hne)) = us.filter fun u => decide (InsideDepthRecord ds u) := by
      apply List.filter_congr
      intro u _
      rw [Bool.eq_iff_iff, decide_eq_true_eq]
      simp only [usblTimeOk, InsideDepthRecord, e1, e2, Option.some.injEq]
      constructor
      · intro h
        split at h
        · simp at h
        · split at h
          · simp at h
          · rename_i h1 h2
            exact ⟨_, _, rfl, rfl, not_lt.mp h1, not_lt.mp h2⟩
      · rintro ⟨a, b, rfl, rfl, h1, h2⟩
        rw [if_neg (not_lt.mpr h1), if_neg (not_lt.mpr h2)]
    rw [htime, usblDepthFiltered]
    set timed := us.filter fun u => decide (InsideDepthRecord ds u) with ht
    have hf := depth_interp ds timed 0 (hus.sublist List.filter_sublist)
      (fun u hu => by simpa using (List.mem_filter.mp hu).2) (by simp) (.inl (List.length_pos_iff.mpr hne))
    rw [zip_filter ds hds sigma (fun u => decide (DepthAgrees ds sigma u)) (by simp) timed _ hf, ht,
      List.filter_filter]
    apply List.filter_congr
    intro u _
    simp [and_comm]

/-- C28: without depth data both lists are empty. -/
theorem C28_no_depth (near : UsblFix K → UsblFix K → Bool) (sigma : K) (ne df : Bool) (us : List (UsblFix K)) :
    usblFilter near sigma ne df us [] = ([], []) := rfl

end

/-! ### Distance filter -/

section
variable {α : Type}

/-- Fix number `i` agrees with the fixes up to two places before and after it. -/
def NeighboursAgree (near : α → α → Bool) (us : List α) (i : Nat) : Prop :=
  ∃ a, us[i]? = some a ∧
    (∀ k b, k ≠ i → k ≤ i + 2 → i ≤ k + 2 → us[k]? = some b → near a b = true)

private theorem dist_step (near : α → α → Bool) (us : List α) (i : Nat) (h2 : 2 ≤ i) (h : i + 2 < us.length) :
    distLoop near us i (-2) =
      if near us[i] us[i - 2] && near us[i] us[i - 1] && near us[i] us[i + 1] && near us[i] us[i + 2]
      then us[i] :: distLoop near us (i + 1) (-2) else distLoop near us (i + 1) (-2) := by
  have gi : us[i]? = some us[i] := List.getElem?_eq_getElem (by omega)
  have g1 : us[((i : Int) + -2).toNat]? = some us[i - 2] := by
    rw [show ((i : Int) + -2).toNat = i - 2 by omega]; exact List.getElem?_eq_getElem (by omega)
  have g2 : us[((i : Int) + -1).toNat]? = some us[i - 1] := by
    rw [show ((i : Int) + -1).toNat = i - 1 by omega]; exact List.getElem?_eq_getElem (by omega)
  have g3 : us[((i : Int) + 1).toNat]? = some us[i + 1] := by
    rw [show ((i : Int) + 1).toNat = i + 1 by omega]; exact List.getElem?_eq_getElem (by omega)
  have g4 : us[((i : Int) + 2).toNat]? = some us[i + 2] := by
    rw [show ((i : Int) + 2).toNat = i + 2 by omega]; exact List.getElem?_eq_getElem (by omega)
  have n1 : nextOffset (-2) = -1 := by decide
  have n2 : nextOffset (-1) = 1 := by decide
  have n3 : nextOffset 1 = 2 := by decide
  have n4 : nextOffset 2 = 3 := by decide
  rw [distLoop, dif_pos h, gi, g1]
  simp only [n1]
  by_cases c1 : near us[i] us[i - 2]
  · rw [if_pos c1, dif_neg (by decide), distLoop, dif_pos h, gi, g2]
    simp only [n2]
    by_cases c2 : near us[i] us[i - 1]
    · rw [if_pos c2, dif_neg (by decide), distLoop, dif_pos h, gi, g3]
      simp only [n3]
      by_cases c3 : near us[i] us[i + 1]
      · rw [if_pos c3, dif_neg (by decide), distLoop, dif_pos h, gi, g4]
        simp only [n4]
        by_cases c4 : near us[i] us[i + 2]
        · rw [if_pos c4, dif_pos (by decide)]
          simp [c1, c2, c3, c4]
        · simp [c4]
      · simp [c3]
    · simp [c2]
  · simp [c1]

/-- A more permissive distance test keeps at least the same fixes, in the same order. -/
theorem distLoop_mono {near near' : α → α → Bool} (us : List α) (h : ∀ a b, near a b = true → near' a b = true) :
    ∀ (m i : Nat), us.length ≤ i + m → 2 ≤ i → (distLoop near us i (-2)).Sublist (distLoop near' us i (-2))
  | 0, i, hm, _ => by rw [distLoop, dif_neg (by omega)]; exact List.nil_sublist _
  | m + 1, i, hm, h2 => by
    by_cases hl : i + 2 < us.length
    · have ih := distLoop_mono us h m (i + 1) (by omega) (by omega)
      rw [dist_step near us i h2 hl, dist_step near' us i h2 hl]
      by_cases c : (near us[i] us[i - 2] && near us[i] us[i - 1] && near us[i] us[i + 1] && near us[i] us[i + 2]) = true
      · have c' : (near' us[i] us[i - 2] && near' us[i] us[i - 1] && near' us[i] us[i + 1] && near' us[i] us[i + 2]) = true := by
          simp only [Bool.and_eq_true] at c ⊢
          exact ⟨⟨⟨h _ _ c.1.1.1, h _ _ c.1.1.2⟩, h _ _ c.1.2⟩, h _ _ c.2⟩
        rw [if_pos c, if_pos c']
        exact ih.cons_cons _
      · rw [if_neg c]
        split
        · exact ih.trans (List.sublist_cons_self _ _)
        · exact ih
    · rw [distLoop, dif_neg hl]; exact List.nil_sublist _

private theorem dist_spec (near : α → α → Bool) (us : List α) : ∀ (m i : Nat), us.length ≤ i + m → 2 ≤ i →
    ∃ idx : List Nat, idx.Pairwise (· < ·) ∧ distLoop near us i (-2) = idx.filterMap (fun k : Nat => us[k]?) ∧
      ∀ k, k ∈ idx ↔ i ≤ k ∧ k + 2 < us.length ∧ NeighboursAgree near us k
  | 0, i, hm, h2 => by
    refine ⟨[], .nil, ?_, ?_⟩
    · rw [distLoop, dif_neg (by omega)]; rfl
    · intro k; simp; omega
  | m + 1, i, hm, h2 => by
    by_cases h : i + 2 < us.length
    · obtain ⟨idx, p1, p2, p3⟩ := dist_spec near us m (i + 1) (by omega) (by omega)
      rw [dist_step near us i h2 h]
      have hag : (near us[i] us[i - 2] && near us[i] us[i - 1] && near us[i] us[i + 1] && near us[i] us[i + 2]) = true ↔
          NeighboursAgree near us i := by
        simp only [Bool.and_eq_true]
        constructor
        · rintro ⟨⟨⟨c1, c2⟩, c3⟩, c4⟩
          refine ⟨us[i], List.getElem?_eq_getElem (by omega), ?_⟩
          intro k b hk1 hk2 hk3 hb
          obtain ⟨hlt, rfl⟩ := List.getElem?_eq_some_iff.mp hb
          have : k = i - 2 ∨ k = i - 1 ∨ k = i + 1 ∨ k = i + 2 := by omega
          rcases this with rfl | rfl | rfl | rfl <;> assumption
        · rintro ⟨a, ha, hall⟩
          obtain ⟨hlt, rfl⟩ := List.getElem?_eq_some_iff.mp ha
          refine ⟨⟨⟨?_, ?_⟩, ?_⟩, ?_⟩
          · exact hall (i - 2) _ (by omega) (by omega) (by omega) (List.getElem?_eq_getElem (by omega))
          · exact hall (i - 1) _ (by omega) (by omega) (by omega) (List.getElem?_eq_getElem (by omega))
          · exact hall (i + 1) _ (by omega) (by omega) (by omega) (List.getElem?_eq_getElem (by omega))
          · exact hall (i + 2) _ (by omega) (by omega) (by omega) (List.getElem?_eq_getElem (by omega))
      by_cases hc : NeighboursAgree near us i
      · rw [if_pos (hag.mpr hc)]
        refine ⟨i :: idx, ?_, ?_, ?_⟩
        · rw [List.pairwise_cons]
          exact ⟨fun k hk => by have := (p3 k).mp hk; omega, p1⟩
        · rw [List.filterMap_cons, List.getElem?_eq_getElem (by omega), p2]
        · intro k
          rw [List.mem_cons, p3 k]
          constructor
          · rintro (rfl | ⟨a, b, c⟩)
            · exact ⟨le_refl _, h, hc⟩
            · exact ⟨by omega, b, c⟩
          · rintro ⟨a, b, c⟩
            rcases Nat.eq_or_lt_of_le a with e | e
            · exact .inl e.symm
            · exact .inr ⟨e, b, c⟩
      · rw [if_neg (by rw [hag]; exact hc)]
        refine ⟨idx, p1, p2, ?_⟩
        intro k
        rw [p3 k]
        constructor
        · rintro ⟨a, b, c⟩; exact ⟨by omega, b, c⟩
        · rintro ⟨a, b, c⟩
          rcases Nat.eq_or_lt_of_le a with e | e
          · subst e; exact absurd c hc
          · exact ⟨e, b, c⟩
    · refine ⟨[], .nil, ?_, ?_⟩
      · rw [distLoop, dif_neg (by omega)]; rfl
      · intro k; simp; omega

end

section
variable {K : Type} [Field K] [LinearOrder K] [IsStrictOrderedRing K]

/-- C28 is false: the first two and last two fixes are dropped even if they agree with all their neighbours. -/
theorem C28_ends_dropped_false : ¬ ∀ (near : UsblFix ℚ → UsblFix ℚ → Bool) (sigma : ℚ) (us : List (UsblFix ℚ))
    (ds : List (DepthSample ℚ)) (u : UsblFix ℚ) (i : Nat), (usblFilter near sigma true true us ds).1[i]? = some u →
    NeighboursAgree near (usblFilter near sigma true true us ds).1 i → u ∈ (usblFilter near sigma true true us ds).2 := by
  intro h
  have e : usblFilter (fun _ _ => true) 1 true true [⟨1, 0, 0, 0, 0, 0, 0⟩] [⟨0, 0, 0⟩, (⟨2, 0, 0⟩ : DepthSample ℚ)]
      = ([⟨1, 0, 0, 0, 0, 0, 0⟩], []) := by
    have h1 : ([⟨1, 0, 0, 0, 0, 0, 0⟩] : List (UsblFix ℚ)).filter (usblTimeOk ⟨0, 0, 0⟩ ⟨2, 0, 0⟩) = [⟨1, 0, 0, 0, 0, 0, 0⟩] := by
      norm_num [usblTimeOk]
    simp only [usblFilter, List.head?_cons, List.getLast?_cons_cons, List.getLast?_singleton, if_true, h1]
    have h2 : usblDepthFiltered [⟨0, 0, 0⟩, (⟨2, 0, 0⟩ : DepthSample ℚ)] 1 [⟨1, 0, 0, 0, 0, 0, 0⟩] = [⟨1, 0, 0, 0, 0, 0, 0⟩] := by
      norm_num [usblDepthFiltered, depthInterp, depthSeek, depthFilter, interpolate]
    rw [h2, distLoop, dif_neg (by simp)]
  have := h (fun _ _ => true) 1 [⟨1, 0, 0, 0, 0, 0, 0⟩] [⟨0, 0, 0⟩, ⟨2, 0, 0⟩] ⟨1, 0, 0, 0, 0, 0, 0⟩ 0 (by rw [e]; rfl)
    ⟨_, by rw [e]; rfl, fun _ _ _ _ _ _ => rfl⟩
  rw [e] at this
  simp at this

/-- C28 (partial): the second list holds, in order, exactly the fixes of the first list that have two fixes on either side
and agree with all four. Missing: the fixes at both ends (false, see above). -/
theorem C28_distance_partial (near : UsblFix K → UsblFix K → Bool) (sigma : K) (us : List (UsblFix K))
    (ds : List (DepthSample K)) :
    ∃ idx : List Nat, idx.Pairwise (· < ·) ∧
      (usblFilter near sigma true true us ds).2
        = idx.filterMap (fun k : Nat => (usblFilter near sigma true true us ds).1[k]?) ∧
      ∀ k, k ∈ idx ↔ 2 ≤ k ∧ k + 2 < (usblFilter near sigma true true us ds).1.length ∧
        NeighboursAgree near (usblFilter near sigma true true us ds).1 k := by
  simp only [usblFilter]
  cases ds.head? with
  | none => exact ⟨[], .nil, rfl, by simp⟩
  | some a =>
    cases ds.getLast? with
    | none => exact ⟨[], .nil, rfl, by simp⟩
    | some b => exact dist_spec near _ _ 2 (Nat.le_add_left _ _) (le_refl _)

/-- C28 is false of the first list when the distance filter is switched off: it is then not depth filtered. -/
theorem C28_first_list_false : ¬ ∀ (near : UsblFix ℚ → UsblFix ℚ → Bool) (sigma : ℚ) (us : List (UsblFix ℚ))
    (ds : List (DepthSample ℚ)), (usblFilter near sigma false true us ds).1 = (usblFilter near sigma true true us ds).1 := by
  intro h
  have := h (fun _ _ => true) 1 [⟨1, 0, 0, 0, 0, 9, 0⟩] [⟨0, 0, 0⟩, ⟨2, 0, 0⟩]
  have h1 : ([⟨1, 0, 0, 0, 0, 9, 0⟩] : List (UsblFix ℚ)).filter (usblTimeOk ⟨0, 0, 0⟩ ⟨2, 0, 0⟩) = [⟨1, 0, 0, 0, 0, 9, 0⟩] := by
    norm_num [usblTimeOk]
  have h2 : usblDepthFiltered [⟨0, 0, 0⟩, (⟨2, 0, 0⟩ : DepthSample ℚ)] 1 [⟨1, 0, 0, 0, 0, 9, 0⟩] = [] := by
    norm_num [usblDepthFiltered, depthInterp, depthSeek, depthFilter, interpolate]
  simp only [usblFilter, List.head?_cons, List.getLast?_cons_cons, List.getLast?_singleton, if_true, h1, h2] at this
  simp at this

end

/-- Length of a plane vector. -/
noncomputable def planeLength (x y : ℝ) : ℝ := Real.sqrt (x ^ 2 + y ^ 2)

private theorem planeLength_eq (x y : ℝ) : planeLength x y = ‖(⟨x, y⟩ : ℂ)‖ := by
  rw [planeLength, Complex.norm_def, Complex.normSq_mk]
  congr 1; ring

private theorem planeLength_add (x y x' y' : ℝ) : planeLength (x + x') (y + y') ≤ planeLength x y + planeLength x' y' := by
  simp only [planeLength_eq]
  exact norm_add_le (⟨x, y⟩ : ℂ) ⟨x', y'⟩

/-- C28: the distance test never separates two good fixes. If the vehicle was at `(n1, e1)` and `(n2, e2)`, moved no faster than
the maximum speed, and both fixes are within `sigma` standard deviations of the true position, the test passes. -/
theorem C28_consistent_fixes_pass (sigma vmax : ℝ) (hs : 1 ≤ sigma) (hv : 0 ≤ vmax) (a b : UsblFix ℝ) (n1 e1 n2 e2 : ℝ)
    (ha : planeLength (a.north - n1) (a.east - e1) ≤ sigma * planeLength a.northStd a.eastStd)
    (hb : planeLength (b.north - n2) (b.east - e2) ≤ sigma * planeLength b.northStd b.eastStd)
    (hm : planeLength (n1 - n2) (e1 - e2) ≤ vmax * |a.t - b.t|) : distanceFilter sigma vmax a b = true := by
  have h1 := planeLength_add (a.north - n1) (a.east - e1) ((n1 - n2) + (n2 - b.north)) ((e1 - e2) + (e2 - b.east))
  have h2 := planeLength_add (n1 - n2) (e1 - e2) (n2 - b.north) (e2 - b.east)
  have h3 : planeLength (n2 - b.north) (e2 - b.east) = planeLength (b.north - n2) (b.east - e2) := by
    simp only [planeLength]; congr 1; ring
  rw [show a.north - n1 + (n1 - n2 + (n2 - b.north)) = a.north - b.north by ring,
    show a.east - e1 + (e1 - e2 + (e2 - b.east)) = a.east - b.east by ring] at h1
  simp only [distanceFilter, decide_eq_true_eq]
  have h4 : 0 ≤ |a.t - b.t| * vmax := mul_nonneg (abs_nonneg _) hv
  have h5 : |a.t - b.t| * vmax ≤ sigma * (|a.t - b.t| * vmax) := le_mul_of_one_le_left h4 hs
  simp only [planeLength] at *
  nlinarith

/-- C28: two fixes further apart than the vehicle can travel plus both uncertainties are separated. -/
theorem C28_inconsistent_fixes_fail (sigma vmax : ℝ) (a b : UsblFix ℝ)
    (h : sigma * (planeLength a.northStd a.eastStd + planeLength b.northStd b.eastStd + |a.t - b.t| * vmax)
      < planeLength (a.north - b.north) (a.east - b.east)) : distanceFilter sigma vmax a b = false := by
  simp only [distanceFilter, decide_eq_false_iff_not, not_le]
  simpa only [planeLength] using h

/-- Five equal fixes in a depth record: the middle one is kept. -/
example : (distLoop (fun a b : Nat => a = b) [7, 7, 7, 7, 7] 2 (-2)) = [7] := by
  rw [dist_step _ _ 2 (by omega) (by simp), distLoop, dif_neg (by simp)]
  simp

end Oplab.Props
