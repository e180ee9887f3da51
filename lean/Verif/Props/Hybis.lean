import Verif.Model.Hybis
import Verif.Spec.Hybis
import Verif.Lemmas.Digits
import Mathlib.Tactic.Ring
import Mathlib.Tactic.Linarith
import Mathlib.Tactic.NormNum
import Mathlib.Tactic.FieldSimp
import Mathlib.Tactic.Positivity

/-! # C143–C146: navigation of HyBIS -/

namespace Oplab.Props
open Oplab Oplab.Spec

private theorem hyb_slice (pre x post : List Char) (a b : Nat) (ha : pre.length = a) (hb : a + x.length = b) :
    slice (pre ++ (x ++ post)) a b = x := by
  subst ha; subst hb
  simp only [slice]
  rw [← List.append_assoc, List.take_append_of_le_length (by simp), List.take_of_length_le (by simp)]
  simp

private theorem hyb_ok (c : DateTime) (h : c.ok = true) : c.year < 10000 ∧ c.month < 100 ∧ c.day < 100 ∧ c.hour < 100 ∧ c.minute < 100
    ∧ c.second < 100 := by
  simp only [DateTime.ok, decide_eq_true_eq] at h
  obtain ⟨-, h2, -, h4, -, h6, h7, h8, h9, -⟩ := h
  have : daysInMonth c.year c.month ≤ 31 := by
    unfold daysInMonth; split <;> (try split) <;> omega
  omega

private theorem hyb_get {α : Type} (pre : List α) (x : α) (post : List α) :
    pyGet (pre ++ x :: post) ((pre.length : Nat) : Int) = .ok x := by
  unfold pyGet
  simp only [Int.natCast_nonneg, not_lt.2, if_false, Int.toNat_natCast, List.getElem?_append_right (Nat.le_refl _), Nat.sub_self,
    List.getElem?_cons_zero]

/-! ## C143 -/

/-- C143: latitudes DDMM.mmmmmH and longitudes DDDMM.mmmmmH are read as signed degrees, whatever reads the numbers. -/
theorem C143_position (toFloat : List Char → Res ℚ) (d m : List Char) (h : Char) (deg minutes : ℚ)
    (hd : d.length = 2 ∨ d.length = 3) (hm : m.length = 8) (h1 : toFloat d = .ok deg) (h2 : toFloat m = .ok minutes) :
    hybisLatLon toFloat (d ++ m ++ [h]) = .ok (hemisphereSign h * (deg + minutes / 60)) := by
  have key : ∀ n, d.length = n → slice (d ++ m ++ [h]) 0 n = d ∧ slice (d ++ m ++ [h]) n (n + 8) = m
      ∧ pyGet (d ++ m ++ [h]) ((n + 8 : Nat) : Int) = .ok h := by
    intro n hn
    refine ⟨?_, ?_, ?_⟩
    · have := hyb_slice [] d (m ++ [h]) 0 n rfl (by omega)
      simpa using this
    · have := hyb_slice d m [h] n (n + 8) hn (by omega)
      simpa using this
    · have := hyb_get (d ++ m) h []
      rw [show (d ++ m).length = n + 8 by simp [hn, hm]] at this
      simpa using this
  have sgn : ∀ x : ℚ, (if h = 'W' ∨ h = 'S' then -x else x) = hemisphereSign h * x := by
    intro x
    unfold hemisphereSign
    by_cases hW : h = 'W' <;> by_cases hS : h = 'S' <;> simp [hW, hS]
  rcases hd with hd | hd
  · obtain ⟨k1, k2, k3⟩ := key 2 hd
    have hl : (d ++ m ++ [h]).length = 11 := by simp [hd, hm]
    unfold hybisLatLon
    simp only [hl, if_pos]
    norm_num at k1 k2 k3 ⊢
    simp only [k1, k2, k3, h1, h2, bind, Except.bind]
    rw [← sgn, neg_add_rev]
  · obtain ⟨k1, k2, k3⟩ := key 3 hd
    have hl : (d ++ m ++ [h]).length = 12 := by simp [hd, hm]
    unfold hybisLatLon
    simp only [hl]
    norm_num at k1 k2 k3 ⊢
    simp only [k1, k2, k3, h1, h2, bind, Except.bind]
    rw [← sgn, neg_add_rev]

example : hybisLatLon (fun s => if s = "007".toList then .ok 7 else .ok (15 / 2)) ("007".toList ++ "07.50000".toList ++ ['W'])
    = .ok (hemisphereSign 'W' * (7 + 15 / 2 / 60)) :=
  C143_position _ _ _ _ _ _ (Or.inr rfl) rfl (by simp) (by simp)

/-- C143: dates and times are read as universal time. -/
theorem C143_time (c : DateTime) (h : c.ok = true) (hus : c.us = 0) : hybisTime (slashDate c) (colonTime c) = .ok (c.seconds : ℚ) := by
  obtain ⟨f1, f2, f3, f4, f5, f6⟩ := hyb_ok c h
  have s1 := hyb_slice (padDigits 2 c.day ++ ['/'] ++ padDigits 2 c.month ++ ['/']) (padDigits 4 c.year) [] 6 10
    (by simp [padDigits_length]) (by simp [padDigits_length])
  have s2 := hyb_slice (padDigits 2 c.day ++ ['/']) (padDigits 2 c.month) (['/'] ++ padDigits 4 c.year) 3 5
    (by simp [padDigits_length]) (by simp [padDigits_length])
  have s3 := hyb_slice [] (padDigits 2 c.day) (['/'] ++ padDigits 2 c.month ++ ['/'] ++ padDigits 4 c.year) 0 2 rfl
    (by simp [padDigits_length])
  have s4 := hyb_slice [] (padDigits 2 c.hour) ([':'] ++ padDigits 2 c.minute ++ [':'] ++ padDigits 2 c.second) 0 2 rfl
    (by simp [padDigits_length])
  have s5 := hyb_slice (padDigits 2 c.hour ++ [':']) (padDigits 2 c.minute) ([':'] ++ padDigits 2 c.second) 3 5
    (by simp [padDigits_length]) (by simp [padDigits_length])
  have s6 := hyb_slice (padDigits 2 c.hour ++ [':'] ++ padDigits 2 c.minute ++ [':']) (padDigits 2 c.second) [] 6 8
    (by simp [padDigits_length]) (by simp [padDigits_length])
  simp only [List.nil_append, List.append_nil, List.append_assoc] at s1 s2 s3 s4 s5 s6
  have he : (⟨c.year, c.month, c.day, c.hour, c.minute, c.second, 0⟩ : DateTime) = c := by rw [← hus]
  simp only [hybisTime, slashDate, colonTime, List.append_assoc, s1, s2, s3, s4, s5, s6, pyInt_padDigits 4 _ (by norm_num) f1,
    pyInt_padDigits 2 _ (by norm_num) f2, pyInt_padDigits 2 _ (by norm_num) f3, pyInt_padDigits 2 _ (by norm_num) f4,
    pyInt_padDigits 2 _ (by norm_num) f5, pyInt_padDigits 2 _ (by norm_num) f6, bind, Except.bind, he]
  simp [dateTimeToEpoch, h, hus]

example : (⟨2016, 2, 29, 23, 59, 7, 0⟩ : DateTime).ok = true := by decide +kernel

/-! ## C144 -/

variable {K : Type} [Field K] [LinearOrder K]

private theorem repairStep_length (ts v : List K) (i : ℕ) : (hybisRepairStep ts v i).length = v.length := by
  unfold hybisRepairStep
  by_cases h : v.getD i 0 = 0
  · simp only [if_pos h, List.length_set]
  · simp only [if_neg h]

private theorem repairStep_other (ts v : List K) (i k : ℕ) (h : k ≠ i) : (hybisRepairStep ts v i).getD k 0 = v.getD k 0 := by
  unfold hybisRepairStep
  by_cases h0 : v.getD i 0 = 0
  · simp only [if_pos h0]
    rw [List.getD_eq_getElem?_getD, List.getElem?_set_ne (Ne.symm h), ← List.getD_eq_getElem?_getD]
  · simp only [if_neg h0]

private theorem repairStep_nonzero (ts v : List K) (i k : ℕ) (h : v.getD k 0 ≠ 0) : (hybisRepairStep ts v i).getD k 0 = v.getD k 0 := by
  by_cases hk : k = i
  · subst hk
    unfold hybisRepairStep
    simp only [if_neg h]
  · exact repairStep_other ts v i k hk

private theorem fold_length (ts : List K) (l : List ℕ) (v : List K) : (l.foldl (hybisRepairStep ts) v).length = v.length := by
  induction l generalizing v with
  | nil => rfl
  | cons i l ih => rw [List.foldl_cons, ih, repairStep_length]

private theorem fold_nonzero (ts : List K) (l : List ℕ) (v : List K) (k : ℕ) (h : v.getD k 0 ≠ 0) :
    (l.foldl (hybisRepairStep ts) v).getD k 0 = v.getD k 0 := by
  induction l generalizing v with
  | nil => rfl
  | cons i l ih =>
    have e := repairStep_nonzero ts v i k h
    rw [List.foldl_cons, ih _ (by rw [e]; exact h), e]

private theorem fold_other (ts : List K) (l : List ℕ) (v : List K) (k : ℕ) (h : k ∉ l) :
    (l.foldl (hybisRepairStep ts) v).getD k 0 = v.getD k 0 := by
  induction l generalizing v with
  | nil => rfl
  | cons i l ih =>
    simp only [List.mem_cons, not_or] at h
    rw [List.foldl_cons, ih _ h.2, repairStep_other ts v i k h.1]

private theorem repair_at (ts v : List K) (i : ℕ) (h0 : 0 < i) (hi : i + 1 < v.length) (hz : v.getD i 0 = 0) :
    (hybisRepair ts v).getD i 0 = interpolate (ts.getD i 0) (ts.getD (i - 1) 0) (ts.getD (i + 1) 0)
      ((hybisRepair ts v).getD (i - 1) 0) (v.getD (i + 1) 0) := by
  have hr : List.range (v.length - 1) = List.range i ++ i :: ((List.range (v.length - 1 - (i + 1))).map (fun x => (i + 1) + x)) := by
    have : v.length - 1 = (i + 1) + (v.length - 1 - (i + 1)) := by omega
    conv_lhs => rw [this]
    rw [List.range_add, List.range_succ, List.append_assoc]
    rfl
  have hn : ∀ k, k ≤ i → k ∉ ((List.range (v.length - 1 - (i + 1))).map (fun x => (i + 1) + x)) := by
    intro k hk hm
    simp only [List.mem_map, List.mem_range] at hm
    obtain ⟨x, _, hx⟩ := hm
    omega
  have e1 : ∀ k, k ≤ i → (hybisRepair ts v).getD k 0
      = (hybisRepairStep ts ((List.range i).foldl (hybisRepairStep ts) v) i).getD k 0 := by
    intro k hk
    unfold hybisRepair
    rw [hr, List.foldl_append, List.foldl_cons, fold_other _ _ _ _ (hn k hk)]
  have ei : ((List.range i).foldl (hybisRepairStep ts) v).getD i 0 = v.getD i 0 := fold_other _ _ _ _ (by simp)
  have ei' : ((List.range i).foldl (hybisRepairStep ts) v).getD (i + 1) 0 = v.getD (i + 1) 0 := fold_other _ _ _ _ (by simp)
  have el : ((List.range i).foldl (hybisRepairStep ts) v).length = v.length := fold_length _ _ _
  rw [e1 i le_rfl, e1 (i - 1) (by omega), repairStep_other _ _ _ (i - 1) (by omega)]
  generalize (List.range i).foldl (hybisRepairStep ts) v = w at *
  have hw : w.getD i 0 = 0 := by rw [ei, hz]
  have hj : ¬ i = 0 := by omega
  unfold hybisRepairStep
  simp only [if_pos hw, if_neg hj]
  rw [ei', List.getD_eq_getElem?_getD, List.getElem?_set_self (by omega)]
  rfl

/-- The full claim: a missing (zero) value between measured ones is replaced by one that is not outside them, at any position. -/
def MissingFilled : Prop := ∀ ts v : List ℚ, ts.length = v.length → ts.Pairwise (· < ·) → ∀ lo hi : ℚ, (∀ x ∈ v, x = 0 ∨ lo ≤ x ∧ x ≤ hi) →
  (∃ x ∈ v, x ≠ 0) → ∀ x ∈ hybisRepair ts v, lo ≤ x ∧ x ≤ hi

/-- C144: the claim is false. The first altitude is extrapolated from the last record, and can come out below the sea bed. -/
theorem C144_missing_false : ¬ MissingFilled := by
  intro h
  have := h [0, 1, 2] [0, 10, 30] rfl (by decide +kernel) 10 30 (by decide +kernel) (by decide +kernel) (-10) (by decide +kernel)
  norm_num at this

/-- C144: a missing last value stays missing, and one followed by another missing value is drawn towards zero. -/
theorem C144_run_false : hybisRepair [(0 : ℚ), 1, 2, 3] [8, 0, 0, 8] = [8, 4, 6, 8] ∧ hybisRepair [(0 : ℚ), 1] [8, 0] = [8, 0] := by
  decide +kernel

/-- C144: measured values are never changed and no record is added or removed. -/
theorem C144_measured_kept (ts v : List K) : (hybisRepair ts v).length = v.length
    ∧ ∀ k : ℕ, v.getD k 0 ≠ 0 → (hybisRepair ts v).getD k 0 = v.getD k 0 :=
  ⟨fold_length _ _ _, fun k hk => fold_nonzero _ _ _ k hk⟩

example : (hybisRepair [(0 : ℚ), 1, 2] [3, 0, 5]) = [3, 4, 5] := by decide +kernel

/-- C144, proved part: a missing value with measured neighbours lies on the line through them, and between them. Missing: the first
and last record, and several missing values in a row. -/
theorem C144_isolated_partial [IsStrictOrderedRing K] (ts v : List K) (i : ℕ) (h0 : 0 < i) (hi : i + 1 < v.length) (hz : v.getD i 0 = 0)
    (hp : v.getD (i - 1) 0 ≠ 0) (t1 : ts.getD (i - 1) 0 < ts.getD i 0) (t2 : ts.getD i 0 < ts.getD (i + 1) 0) :
    OnTimeLine (ts.getD i 0) (ts.getD (i - 1) 0) (ts.getD (i + 1) 0) (v.getD (i - 1) 0) (v.getD (i + 1) 0) ((hybisRepair ts v).getD i 0)
    ∧ min (v.getD (i - 1) 0) (v.getD (i + 1) 0) ≤ (hybisRepair ts v).getD i 0
    ∧ (hybisRepair ts v).getD i 0 ≤ max (v.getD (i - 1) 0) (v.getD (i + 1) 0) := by
  rw [repair_at ts v i h0 hi hz, (C144_measured_kept ts v).2 _ hp]
  generalize ts.getD (i - 1) 0 = a at *
  generalize ts.getD i 0 = b at *
  generalize ts.getD (i + 1) 0 = c at *
  generalize v.getD (i - 1) 0 = y at *
  generalize v.getD (i + 1) 0 = z at *
  have hca : 0 < c - a := by linarith
  have e : interpolate b a c y z = (z - y) / (c - a) * (b - a) + y := by
    unfold interpolate
    rw [if_neg (by intro h; rw [h] at hca; simp at hca)]
  rw [e]
  refine ⟨?_, ?_, ?_⟩
  · unfold OnTimeLine
    field_simp
    ring
  · rcases le_total y z with h | h
    · rw [min_eq_left h]
      have : 0 ≤ (z - y) / (c - a) * (b - a) := mul_nonneg (div_nonneg (by linarith) hca.le) (by linarith)
      linarith
    · rw [min_eq_right h]
      have : (y - z) / (c - a) * (b - a) ≤ y - z := by
        rw [div_mul_eq_mul_div, div_le_iff₀ hca]
        exact mul_le_mul_of_nonneg_left (by linarith) (by linarith)
      have e2 : (z - y) / (c - a) * (b - a) = -((y - z) / (c - a) * (b - a)) := by ring
      rw [e2]; linarith
  · rcases le_total y z with h | h
    · rw [max_eq_right h]
      have : (z - y) / (c - a) * (b - a) ≤ z - y := by
        rw [div_mul_eq_mul_div, div_le_iff₀ hca]
        exact mul_le_mul_of_nonneg_left (by linarith) (by linarith)
      linarith
    · rw [max_eq_left h]
      have : 0 ≤ (y - z) / (c - a) * (b - a) := mul_nonneg (div_nonneg (by linarith) hca.le) (by linarith)
      have e2 : (z - y) / (c - a) * (b - a) = -((y - z) / (c - a) * (b - a)) := by ring
      rw [e2]; linarith

example : OnTimeLine (1 : ℚ) 0 3 3 9 ((hybisRepair [(0 : ℚ), 1, 3] [3, 0, 9]).getD 1 0) :=
  (C144_isolated_partial [(0 : ℚ), 1, 3] [3, 0, 9] 1 (by norm_num) (by decide) (by decide +kernel) (by decide +kernel) (by decide +kernel)
    (by decide +kernel)).1

/-! ## C145 -/

/-- The full claim: the position of an image taken between two records lies on the line between these two. -/
def ImageBetween : Prop := ∀ (ts v : List ℚ) (m t1 t2 v1 v2 y : ℚ) (k : ℕ), ts.Pairwise (· < ·) → ts[k]? = some t1 → ts[k + 1]? = some t2 →
  v[k]? = some v1 → v[k + 1]? = some v2 → t1 ≤ m → m ≤ t2 → ts.length = v.length → hybisAt ts v m = .ok y → OnTimeLine m t1 t2 v1 v2 y

/-- C145: the claim is false. The records used are the two after the image. -/
theorem C145_between_false : ¬ ImageBetween := by
  intro h
  have := h [0, 10, 20] [0, 10, 0] 5 0 10 0 10 15 0 (by decide +kernel) rfl rfl rfl rfl (by norm_num) (by norm_num) rfl (by
    have hi : hybisIndex [(0 : ℚ), 10, 20] 5 0 = 1 := by decide +kernel
    unfold hybisAt
    simp only [hi]
    norm_num [interpolate])
  unfold OnTimeLine at this
  norm_num at this

/-- C145: half way between the headings 359 and 1 the vehicle is said to look south. -/
theorem C145_heading_false : hybisAt [(0 : ℚ), 2] [359, 1] 1 = .ok 180 := by
  have hi : hybisIndex [(0 : ℚ), 2] 1 0 = 0 := by decide +kernel
  unfold hybisAt
  simp only [hi]
  norm_num [interpolate]

private theorem index_spec (ts : List K) (m : K) (i : ℕ) : i ≤ hybisIndex ts m i
    ∧ (∀ j : ℕ, i ≤ j → j < hybisIndex ts m i → j + 2 < ts.length ∧ ts.getD j 0 < m)
    ∧ ¬ (hybisIndex ts m i + 2 < ts.length ∧ ts.getD (hybisIndex ts m i) 0 < m) := by
  fun_induction hybisIndex ts m i with
  | case1 i h ih =>
    refine ⟨by omega, ?_, ih.2.2⟩
    intro j h1 h2
    rcases Nat.eq_or_lt_of_le h1 with rfl | h3
    · exact h
    · exact ih.2.1 j h3 h2
  | case2 i h => exact ⟨le_rfl, fun j h1 h2 => by omega, h⟩

private theorem index_unique (ts : List K) (m : K) (k : ℕ) (h1 : ∀ j < k, j + 2 < ts.length ∧ ts.getD j 0 < m)
    (h2 : ¬ (k + 2 < ts.length ∧ ts.getD k 0 < m)) : hybisIndex ts m 0 = k := by
  obtain ⟨-, a, b⟩ := index_spec ts m 0
  rcases lt_trichotomy (hybisIndex ts m 0) k with h | h | h
  · exact absurd (h1 _ h) b
  · exact h
  · exact absurd (a k (Nat.zero_le _) h) h2

private theorem at_ok {ts v : List K} {m t1 t2 v1 v2 : K} {k : ℕ} (hi : hybisIndex ts m 0 = k) (a1 : ts[k]? = some t1)
    (a2 : ts[k + 1]? = some t2) (b1 : v[k]? = some v1) (b2 : v[k + 1]? = some v2) :
    hybisAt ts v m = .ok (interpolate m t1 t2 v1 v2) := by
  unfold hybisAt
  rw [hi]
  simp only [a1, a2, b1, b2]

omit [Field K] in
private theorem sorted_lt {ts : List K} (hs : ts.Pairwise (· < ·)) {i j : ℕ} {a b : K} (ha : ts[i]? = some a) (hb : ts[j]? = some b)
    (hij : i < j) : a < b := by
  obtain ⟨h1, rfl⟩ := List.getElem?_eq_some_iff.1 ha
  obtain ⟨h2, rfl⟩ := List.getElem?_eq_some_iff.1 hb
  exact List.pairwise_iff_getElem.1 hs i j h1 h2 hij

omit [LinearOrder K] in
private theorem getD_of {ts : List K} {i : ℕ} {a : K} (h : ts[i]? = some a) : ts.getD i 0 = a := by
  rw [List.getD_eq_getElem?_getD, h]; rfl

/-- C145, what the code does for every time: with at least two records an image gets a position, on the line through the records `k` and
`k + 1`, where `k` is the first record not before the image, but at most the last but one. -/
theorem C145_line_partial [IsStrictOrderedRing K] (ts v : List K) (m : K) (hl : ts.length = v.length) (h2 : 2 ≤ ts.length)
    (hs : ts.Pairwise (· < ·)) : ∃ (k : ℕ) (t1 t2 v1 v2 y : K), ts[k]? = some t1 ∧ ts[k + 1]? = some t2 ∧ v[k]? = some v1 ∧ v[k + 1]? = some v2
      ∧ hybisAt ts v m = .ok y ∧ OnTimeLine m t1 t2 v1 v2 y ∧ (m ≤ t1 ∨ k + 2 = ts.length)
      ∧ ∀ (j : ℕ) (t : K), j < k → ts[j]? = some t → t < m := by
  obtain ⟨-, a, b⟩ := index_spec ts m 0
  have hk : hybisIndex ts m 0 + 1 < ts.length := by
    rcases Nat.eq_zero_or_pos (hybisIndex ts m 0) with h | h
    · omega
    · have := (a (hybisIndex ts m 0 - 1) (Nat.zero_le _) (by omega)).1
      omega
  generalize e : hybisIndex ts m 0 = k at *
  have g1 : ts[k]? = some (ts[k]'(by omega)) := List.getElem?_eq_getElem _
  have g2 : ts[k + 1]? = some (ts[k + 1]'hk) := List.getElem?_eq_getElem _
  have g3 : v[k]? = some (v[k]'(by omega)) := List.getElem?_eq_getElem _
  have g4 : v[k + 1]? = some (v[k + 1]'(by omega)) := List.getElem?_eq_getElem _
  refine ⟨k, _, _, _, _, _, g1, g2, g3, g4, at_ok e g1 g2 g3 g4, ?_, ?_, ?_⟩
  · have hlt := sorted_lt hs g1 g2 (Nat.lt_succ_self k)
    unfold OnTimeLine interpolate
    rw [if_neg (ne_of_gt hlt)]
    have : ts[k + 1]'hk - ts[k]'(by omega) ≠ 0 := by
      intro h; exact absurd (sub_eq_zero.1 h) (ne_of_gt hlt)
    field_simp
    ring
  · rw [getD_of g1] at b
    by_cases hm : ts[k]'(by omega) < m
    · right
      have : ¬ k + 2 < ts.length := fun h => b ⟨h, hm⟩
      omega
    · left; exact not_lt.1 hm
  · intro j t hj ht
    have := (a j (Nat.zero_le _) hj).2
    rwa [getD_of ht] at this

example : ∃ y, hybisAt [(0 : ℚ), 10, 20] [0, 10, 0] 5 = .ok y := by
  obtain ⟨_, _, _, _, _, y, _, _, _, _, h, _⟩ := C145_line_partial [(0 : ℚ), 10, 20] [0, 10, 0] 5 rfl (by decide) (by decide +kernel)
  exact ⟨y, h⟩

/-- C145: an image taken at the time of any record has the position of that record. -/
theorem C145_at_record [IsStrictOrderedRing K] (ts v : List K) (k : ℕ) (t y : K) (hl : ts.length = v.length) (h2 : 2 ≤ ts.length)
    (hs : ts.Pairwise (· < ·)) (ht : ts[k]? = some t) (hy : v[k]? = some y) : hybisAt ts v t = .ok y := by
  obtain ⟨i, t1, t2, v1, v2, z, a1, a2, b1, b2, hz, hon, hle, hlt⟩ := C145_line_partial ts v t hl h2 hs
  have hkl : k < ts.length := (List.getElem?_eq_some_iff.1 ht).1
  have h12 : t2 - t1 ≠ 0 := by
    have := sorted_lt hs a1 a2 (Nat.lt_succ_self i)
    intro h; rw [sub_eq_zero] at h; rw [h] at this; exact lt_irrefl _ this
  have hik : i ≤ k := by
    by_contra h
    exact absurd (hlt k t (by omega) ht) (lt_irrefl _)
  have hcase : k = i ∨ k = i + 1 := by
    rcases Nat.eq_or_lt_of_le hik with h | h
    · exact Or.inl h.symm
    · right
      rcases hle with hle | hle
      · exact absurd (sorted_lt hs a1 ht h) (not_lt.2 hle)
      · omega
  rw [hz]
  unfold OnTimeLine at hon
  rcases hcase with rfl | rfl
  · rw [ht] at a1; rw [hy] at b1
    cases a1; cases b1
    rw [sub_self, mul_zero] at hon
    rw [sub_eq_zero.1 ((mul_eq_zero.1 hon).resolve_right h12)]
  · rw [ht] at a2; rw [hy] at b2
    cases a2; cases b2
    have := mul_right_cancel₀ h12 hon
    rw [sub_left_inj.1 this]

example : hybisAt [(0 : ℚ), 10, 20] [3, 10, 7] 20 = .ok 7 :=
  C145_at_record _ _ 2 _ _ rfl (by decide) (by decide +kernel) rfl rfl

/-- C145, proved part of the claim: images after the last but one record are placed between the last two. -/
theorem C145_last_partial [IsStrictOrderedRing K] (ts v : List K) (m t1 t2 v1 v2 : K) (k : ℕ) (hl : ts.length = v.length)
    (hs : ts.Pairwise (· < ·)) (hk : k + 2 = ts.length) (a1 : ts[k]? = some t1) (a2 : ts[k + 1]? = some t2) (b1 : v[k]? = some v1)
    (b2 : v[k + 1]? = some v2) (hm : t1 < m) : ∃ y, hybisAt ts v m = .ok y ∧ OnTimeLine m t1 t2 v1 v2 y := by
  obtain ⟨i, s1, s2, w1, w2, z, c1, c2, d1, d2, hz, hon, hle, hlt⟩ := C145_line_partial ts v m hl (by omega) hs
  have : i + 1 < ts.length := (List.getElem?_eq_some_iff.1 c2).1
  have hi : i = k := by
    rcases hle with hle | hle
    · by_contra h
      exact absurd (lt_trans (lt_of_le_of_lt hle (sorted_lt hs c1 a1 (by omega))) hm) (lt_irrefl _)
    · omega
  subst hi
  rw [a1] at c1; rw [a2] at c2; rw [b1] at d1; rw [b2] at d2
  cases c1; cases c2; cases d1; cases d2
  exact ⟨z, hz, hon⟩

example : ∃ y, hybisAt [(0 : ℚ), 10, 20] [3, 10, 7] 15 = .ok y ∧ OnTimeLine 15 10 20 10 7 y :=
  C145_last_partial _ _ _ _ _ _ _ 1 rfl (by decide +kernel) rfl rfl rfl rfl rfl (by norm_num)

/-- C145, proved part of the claim: a vehicle moving steadily between all records is placed correctly at every time. -/
theorem C145_steady_partial [IsStrictOrderedRing K] (ts v : List K) (m a b : K) (hl : ts.length = v.length) (h2 : 2 ≤ ts.length)
    (hs : ts.Pairwise (· < ·)) (hv : ∀ (k : ℕ) (t y : K), ts[k]? = some t → v[k]? = some y → y = a * t + b) :
    hybisAt ts v m = .ok (a * m + b) := by
  obtain ⟨i, t1, t2, v1, v2, z, a1, a2, b1, b2, hz, hon, -, -⟩ := C145_line_partial ts v m hl h2 hs
  have h12 : t2 - t1 ≠ 0 := by
    have := sorted_lt hs a1 a2 (Nat.lt_succ_self i)
    intro h; rw [sub_eq_zero] at h; rw [h] at this; exact lt_irrefl _ this
  rw [hz, hv _ _ _ a1 b1, hv _ _ _ a2 b2] at *
  unfold OnTimeLine at hon
  have h3 : (z - (a * t1 + b)) * (t2 - t1) = (a * m - a * t1) * (t2 - t1) := by rw [hon]; ring
  have h4 := mul_right_cancel₀ h12 h3
  have : z = a * m + b := by linear_combination h4
  rw [this]

/-! ## C146 -/

/-- The full claim: the reference position the user gives is the one used. -/
def ReferenceUsed : Prop := ∀ (lat lon : ℚ) (ps : List (ℚ × ℚ)), hybisReference lat lon ps = .ok (lat, lon)

/-- C146: the claim is false on the equator and on the meridian of Greenwich. -/
theorem C146_reference_false : ¬ ReferenceUsed := by
  intro h
  have := congrArg Except.toOption (h 51 0 [(50, 1)])
  revert this
  decide +kernel

/-- C146: on the equator or the meridian of Greenwich, and if all latitudes are missing, the conversion stops. -/
theorem C146_stops_iff_partial (lat lon : K) (ps : List (K × K)) :
    hybisReference lat lon ps = .error .indexError ↔ (lat = 0 ∨ lon = 0) ∧ ∀ p ∈ ps, p.1 = 0 := by
  unfold hybisReference
  by_cases h : lon = 0 ∨ lat = 0
  · rw [if_pos h]
    cases hf : ps.find? fun p => decide (p.1 ≠ 0) with
    | some p =>
      simp only [reduceCtorEq, false_iff, not_and, not_forall]
      intro _
      have := List.find?_some hf
      exact ⟨p, List.mem_of_find?_eq_some hf, by simpa using this⟩
    | none =>
      simp only [true_iff]
      rw [List.find?_eq_none] at hf
      exact ⟨h.symm, fun p hp => by simpa using hf p hp⟩
  · rw [if_neg h]
    simp only [reduceCtorEq, false_iff, not_and]
    intro h'; exact absurd h'.symm h

example : hybisReference (0 : ℚ) 3 [(0, 1)] = .error .indexError :=
  (C146_stops_iff_partial _ _ _).2 ⟨Or.inl rfl, by simp⟩

/-- C146, proved part: away from the equator and the meridian of Greenwich the reference is the one given; otherwise, if some record has
a latitude, it is the first such record. -/
theorem C146_reference_partial (lat lon : K) (before : List (K × K)) (p : K × K) (after : List (K × K))
    (hb : ∀ q ∈ before, q.1 = 0) (hp : p.1 ≠ 0) : hybisReference lat lon (before ++ p :: after)
      = .ok (if lat = 0 ∨ lon = 0 then p else (lat, lon)) := by
  unfold hybisReference
  have hf : (before ++ p :: after).find? (fun p => decide (p.1 ≠ 0)) = some p := by
    rw [List.find?_append, List.find?_eq_none.2 (by simpa using hb), List.find?_cons_of_pos (by simpa using hp)]
    rfl
  by_cases h : lon = 0 ∨ lat = 0
  · rw [if_pos h, if_pos h.symm, hf]
  · rw [if_neg h, if_neg (fun h' => h h'.symm)]

example : hybisReference (51 : ℚ) (-4) [(0, 1), (50, 1)] = .ok (51, -4) := by
  have := C146_reference_partial (51 : ℚ) (-4) [(0, 1)] (50, 1) [] (by simp) (by norm_num)
  norm_num at this ⊢
  exact this

end Oplab.Props
