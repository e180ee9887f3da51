import Mathlib.Algebra.Order.Field.Rat
import Mathlib.Algebra.Order.BigOperators.Ring.Finset
import Mathlib.Tactic.NormNum
import Mathlib.Tactic.FieldSimp
import Mathlib.Tactic.Linarith
import Mathlib.Tactic.Ring
import Mathlib.Data.List.Nodup
import Verif.Model.Laser
import Verif.Spec.Laser
import Verif.Lemmas.Seek

/-! C87-C91: laser detection, pairs of images, point clouds, detections kept in files. -/

namespace Oplab.Props
open Oplab Oplab.Spec Oplab.Seek

private theorem resOk {α : Type} {x : Res α} {a : α} (h : x.toOption = some a) : x = .ok a := by
  cases x with
  | error e => cases h
  | ok b => exact congrArg _ (Option.some.inj h)

section
variable {K : Type} [Field K] [LinearOrder K]

private theorem sum_mapIdx {M : Type} [AddCommMonoid M] {α : Type} (d : α) : ∀ (w : List α) (f : ℕ → α → M),
    (w.mapIdx f).sum = ∑ j ∈ Finset.range w.length, f j (w.getD j d)
  | [], f => by simp
  | a :: w, f => by
    rw [List.mapIdx_cons, List.sum_cons, sum_mapIdx d w, List.length_cons, Finset.sum_range_succ', add_comm]
    simp

private theorem weight_eq [IsStrictOrderedRing K] (k j : ℕ) : (laserWeight k j : K) = 1 - |2 * (j : K) - ((k : K) - 1)| / (k : K) := by
  rw [laserWeight]
  have h : (2 : K) * |((k : K) - 1) / 2 - (j : K)| = |2 * (j : K) - ((k : K) - 1)| := by
    rw [show (2 : K) * |((k : K) - 1) / 2 - (j : K)| = |2| * |((k : K) - 1) / 2 - (j : K)| by rw [abs_of_pos (two_pos : (0 : K) < 2)],
      ← abs_mul, ← abs_neg]
    congr 1; field_simp; ring
  rw [h]

private theorem windowSums_ok [IsStrictOrderedRing K] (k : ℕ) (col : List K) (v : ℕ) (h : v + k ≤ col.length) :
    windowSums k col v = .ok (green k col v, ∑ j ∈ Finset.range k, col.getD (v + j) 0,
      ∑ j ∈ Finset.range k, (j : K) * col.getD (v + j) 0) := by
  have hl : ((col.drop v).take k).length = k := by simp; omega
  have hg : ∀ j, j < k → ((col.drop v).take k).getD j 0 = col.getD (v + j) 0 := fun j hj => by
    simp only [List.getD_eq_getElem?_getD, List.getElem?_take, if_pos hj, List.getElem?_drop]
  have hsum : ((col.drop v).take k).sum = ∑ j ∈ Finset.range k, col.getD (v + j) 0 := by
    have := sum_mapIdx (0 : K) ((col.drop v).take k) (fun _ x => x)
    rw [hl, List.mapIdx_eq_zipIdx_map] at this
    rw [show ((col.drop v).take k).sum = (((col.drop v).take k).zipIdx.map fun x => x.1).sum by rw [List.zipIdx_map_fst]]
    rw [this]
    exact Finset.sum_congr rfl fun j hj => hg j (Finset.mem_range.1 hj)
  rw [windowSums]
  simp only [hl, lt_irrefl, if_false]
  rw [sum_mapIdx (0 : K), sum_mapIdx (0 : K), hl, hsum]
  congr 2
  · exact Finset.sum_congr rfl fun j hj => by rw [hg j (Finset.mem_range.1 hj), weight_eq]
  · congr 1
    exact Finset.sum_congr rfl fun j hj => by rw [hg j (Finset.mem_range.1 hj)]

private theorem scanColumn_ok [IsStrictOrderedRing K] (k : ℕ) (col : List K) : ∀ (ws : List ℕ) (g : K) (vg : Option K),
    (∀ w ∈ ws, w + k ≤ col.length) → ∃ g' vg', scanColumn k col ws g vg = .ok (g', vg') ∧
      ((g' = g ∧ vg' = vg ∧ ∀ w ∈ ws, green k col w ≤ g) ∨
        ∃ pre w post, ws = pre ++ w :: post ∧ g' = green k col w ∧ g < g' ∧ vg' = some (centroid k col w) ∧
          (∀ x ∈ pre, green k col x < g') ∧ ∀ x ∈ post, green k col x ≤ g')
  | [], g, vg, _ => ⟨g, vg, rfl, Or.inl ⟨rfl, rfl, by simp⟩⟩
  | w :: ws, g, vg, h => by
    rw [scanColumn, windowSums_ok k col w (h w (by simp))]
    simp only [bind, Except.bind]
    by_cases hg : green k col w > g
    · rw [if_pos hg]
      obtain ⟨g', vg', h1, h2⟩ := scanColumn_ok k col ws (green k col w) (some (centroid k col w)) (fun x hx => h x (by simp [hx]))
      refine ⟨g', vg', h1, Or.inr ?_⟩
      rcases h2 with ⟨rfl, rfl, h2⟩ | ⟨pre, x, post, rfl, rfl, h3, h4, h5, h6⟩
      · exact ⟨[], w, ws, rfl, rfl, hg, rfl, by simp, h2⟩
      · refine ⟨w :: pre, x, post, rfl, rfl, hg.trans h3, h4, fun y hy => ?_, h6⟩
        rcases List.mem_cons.1 hy with rfl | hy
        · exact h3
        · exact h5 y hy
    · rw [if_neg hg]
      obtain ⟨g', vg', h1, h2⟩ := scanColumn_ok k col ws g vg (fun x hx => h x (by simp [hx]))
      refine ⟨g', vg', h1, ?_⟩
      rcases h2 with ⟨rfl, rfl, h2⟩ | ⟨pre, x, post, rfl, rfl, h3, h4, h5, h6⟩
      · refine Or.inl ⟨rfl, rfl, fun y hy => ?_⟩
        rcases List.mem_cons.1 hy with rfl | hy
        · exact not_lt.1 hg
        · exact h2 y hy
      · refine Or.inr ⟨w :: pre, x, post, rfl, rfl, h3, h4, fun y hy => ?_, h6⟩
        rcases List.mem_cons.1 hy with rfl | hy
        · exact (not_lt.1 hg).trans_lt h3
        · exact h5 y hy

/-- What the search reports in one column: nothing, if no searched window is brighter than the limit; otherwise the
centre of brightness of the first of the brightest windows. -/
def ColumnPeak (k start : ℕ) (stop : Int) (limit : K) (col : List K) : Option K → Prop
  | none => ∀ w : ℕ, start ≤ w → (w : Int) + k < stop → green k col w ≤ limit
  | some v => ∃ w : ℕ, start ≤ w ∧ (w : Int) + k < stop ∧ limit < green k col w ∧ v = centroid k col w ∧
      (∀ x : ℕ, start ≤ x → (x : Int) + k < stop → green k col x ≤ green k col w) ∧
      ∀ x : ℕ, start ≤ x → x < w → green k col x < green k col w

private theorem mem_windowRows (k start : ℕ) (stop : Int) (w : ℕ) :
    w ∈ windowRows k start stop ↔ start ≤ w ∧ (w : Int) + k < stop := by
  simp only [windowRows, List.mem_map, List.mem_range]
  constructor
  · rintro ⟨i, h, rfl⟩; constructor <;> omega
  · rintro ⟨h1, h2⟩; exact ⟨w - start, by omega, by omega⟩

private theorem windowRows_sorted (k start : ℕ) (stop : Int) : (windowRows k start stop).Pairwise (· < ·) := by
  rw [windowRows, List.pairwise_map]
  exact List.pairwise_lt_range.imp fun h => by omega

private theorem column_ok [IsStrictOrderedRing K] (k start : ℕ) (stop : Int) (limit : K) (col : List K) (vg : Option K) (u : ℕ)
    (hl : stop ≤ col.length) (h0 : 0 ≤ limit) :
    ∃ g' vg' o, scanColumn k col (windowRows k start stop) 0 vg = .ok (g', vg') ∧
      appendPeak limit u g' vg' = .ok (o.toList.map fun v => (v, u)) ∧ ColumnPeak k start stop limit col o := by
  obtain ⟨g', vg', h1, h2⟩ := scanColumn_ok k col (windowRows k start stop) 0 vg (fun w hw => by
    have := (mem_windowRows k start stop w).1 hw; omega)
  have hs := windowRows_sorted k start stop
  rcases h2 with ⟨rfl, rfl, h2⟩ | ⟨pre, w, post, hw, rfl, h3, rfl, h5, h6⟩
  · refine ⟨0, _, none, h1, by simp only [appendPeak, if_neg (not_lt.2 h0)]; rfl, fun w hw1 hw2 => ?_⟩
    exact (h2 w ((mem_windowRows k start stop w).2 ⟨hw1, hw2⟩)).trans h0
  · have hmax : ∀ x : ℕ, start ≤ x → (x : Int) + k < stop → green k col x ≤ green k col w := fun x hx1 hx2 => by
      have := (mem_windowRows k start stop x).2 ⟨hx1, hx2⟩
      rw [hw, List.mem_append, List.mem_cons] at this
      rcases this with h | rfl | h
      · exact (h5 x h).le
      · exact le_rfl
      · exact h6 x h
    by_cases hgt : green k col w > limit
    · refine ⟨_, _, some (centroid k col w), h1, by rw [appendPeak, if_pos hgt]; rfl, w, ?_⟩
      have hm := (mem_windowRows k start stop w).1 (by rw [hw]; simp)
      refine ⟨hm.1, hm.2, hgt, rfl, hmax, fun x hx1 hx2 => ?_⟩
      have := (mem_windowRows k start stop x).2 ⟨hx1, by omega⟩
      rw [hw] at hs this
      rw [List.mem_append, List.mem_cons] at this
      rcases this with h | rfl | h
      · exact h5 x h
      · omega
      · have := (List.pairwise_append.1 hs).2.1
        have := List.rel_of_pairwise_cons this h
        omega
    · exact ⟨_, _, none, h1, by rw [appendPeak, if_neg hgt]; rfl, fun x hx1 hx2 => (hmax x hx1 hx2).trans (not_lt.1 hgt)⟩

private theorem scanColumns_ok [IsStrictOrderedRing K] (k start : ℕ) (stop : Int) (limit : K) (img : ℕ → List K) (h0 : 0 ≤ limit) :
    ∀ (us : List ℕ) (vg : Option K), us.Nodup → (∀ u ∈ us, stop ≤ (img u).length) →
      ∃ f : ℕ → Option K, (∀ u ∈ us, ColumnPeak k start stop limit (img u) (f u)) ∧
        scanColumns k start stop limit img us vg = .ok (us.flatMap fun u => (f u).toList.map fun v => (v, u))
  | [], vg, _, _ => ⟨fun _ => none, by simp, rfl⟩
  | u :: us, vg, hn, h => by
    obtain ⟨hu, hn⟩ := List.nodup_cons.1 hn
    obtain ⟨g', vg', o, h1, h2, h3⟩ := column_ok k start stop limit (img u) vg u (h u (by simp)) h0
    obtain ⟨f, h4, h5⟩ := scanColumns_ok k start stop limit img h0 us vg' hn (fun x hx => h x (by simp [hx]))
    have hne : ∀ x ∈ us, x ≠ u := fun x hx e => hu (e ▸ hx)
    refine ⟨fun x => if x = u then o else f x, fun x hx => ?_, ?_⟩
    · rcases List.mem_cons.1 hx with rfl | hx
      · simpa using h3
      · simp only [if_neg (hne x hx)]; exact h4 x hx
    · rw [scanColumns]
      simp only [bind, Except.bind, h1, h2, h5, List.flatMap_cons, if_true]
      congr 2
      exact List.flatMap_congr fun x hx => by rw [if_neg (hne x hx)]

private theorem columns_sorted (width num : ℕ) : (laserColumns width num).Pairwise (· < ·) := by
  rw [laserColumns]
  simp only
  split_ifs with h
  · rw [List.pairwise_map]
    refine List.pairwise_lt_range.imp fun {a b} h => ?_
    have : 0 < max ((width - 80 - 80) / num - 1) 1 := by omega
    have := Nat.mul_lt_mul_of_pos_right h this
    omega
  · rw [List.pairwise_map]
    exact List.pairwise_lt_range.imp fun h => by omega

/-- C87 (columns): the columns searched are distinct, in order and inside the margins of 80 pixels; if there are that many
columns inside the margins, at least the requested number is searched, and all of them if none is requested. -/
theorem C87_columns (width num : ℕ) :
    (laserColumns width num).Pairwise (· < ·) ∧ (∀ u ∈ laserColumns width num, 80 ≤ u ∧ u + 80 < width) ∧
    (num ≤ width - 160 → num ≤ (laserColumns width num).length) ∧
    (num = 0 → ∀ u, 80 ≤ u → u + 80 < width → u ∈ laserColumns width num) := by
  refine ⟨columns_sorted width num, ?_, ?_, ?_⟩
  · intro u hu
    rw [laserColumns] at hu
    simp only at hu
    split_ifs at hu with h
    · obtain ⟨i, hi, rfl⟩ := List.mem_map.1 hu
      rw [List.mem_range] at hi
      generalize hc : max ((width - 80 - 80) / num - 1) 1 = c at *
      have hc0 : 0 < c := by omega
      have h1 : i + 1 ≤ (width - 80 - 80 + c - 1) / c := hi
      rw [Nat.le_div_iff_mul_le hc0, Nat.add_mul] at h1
      omega
    · obtain ⟨i, hi, rfl⟩ := List.mem_map.1 hu
      rw [List.mem_range] at hi
      omega
  · intro hn
    rw [laserColumns]
    simp only
    split_ifs with h
    · rw [List.length_map, List.length_range]
      generalize hc : max ((width - 80 - 80) / num - 1) 1 = c
      have hc0 : 0 < c := by omega
      rw [Nat.le_div_iff_mul_le hc0]
      have h1 : num * ((width - 80 - 80) / num) ≤ width - 80 - 80 := Nat.mul_div_le _ _
      rcases Nat.le_total ((width - 80 - 80) / num - 1) 1 with h2 | h2
      · rw [max_eq_right h2] at hc; subst hc; omega
      · rw [max_eq_left h2] at hc
        have : num * c ≤ num * ((width - 80 - 80) / num) := Nat.mul_le_mul_left _ (by omega)
        omega
    · omega
  · rintro rfl u h1 h2
    simp only [laserColumns, lt_irrefl, if_false, List.mem_map, List.mem_range]
    exact ⟨u - 80, by omega, by omega⟩

example : laserColumns 173 4 = [80, 82, 84, 86, 88, 90, 92] := by decide

/-- C87: every searched column gets at most one peak: the centre of brightness of the brightest window, and none if no
window that ends before the last row is brighter than the limit. Missing from the full claim: the window that ends with the
last row. -/
theorem C87_detection_partial [IsStrictOrderedRing K] (imgMax ratio : K) (k num start : ℕ) (endRow : Int) (height width : ℕ)
    (img : ℕ → List K) (h0 : 0 ≤ ratio * imgMax) (hh : ∀ u, 80 ≤ u → u + 80 < width → (img u).length = height)
    (he : endRow ≤ height) :
    ∃ f : ℕ → Option K,
      (∀ u ∈ laserColumns width num,
        ColumnPeak k start (if endRow = -1 then (height : Int) else endRow) (ratio * imgMax) (img u) (f u)) ∧
      findLaser imgMax ratio k num start endRow height width img =
        .ok ((laserColumns width num).flatMap fun u => (f u).toList.map fun v => (v, u)) := by
  refine scanColumns_ok k start _ _ img h0 _ none ((columns_sorted width num).imp fun h => by omega) fun u hu => ?_
  have := (C87_columns width num).2.1 u hu
  rw [hh u this.1 this.2]
  split_ifs <;> omega

/-- C87: the row reported lies in the window. -/
theorem C87_row_in_window [IsStrictOrderedRing K] (k : ℕ) (col : List K) (w : ℕ) (hc : ∀ x ∈ col, 0 ≤ x) (limit : K)
    (h0 : 0 ≤ limit) (hg : limit < green k col w) :
    (w : K) ≤ centroid k col w ∧ centroid k col w ≤ (w : K) + ((k : K) - 1) := by
  have hk : 0 < k := by
    rcases Nat.eq_zero_or_pos k with rfl | h
    · simp [green] at hg; exact absurd (h0.trans_lt hg) (lt_irrefl _)
    · exact h
  have hn : ∀ i, 0 ≤ col.getD i 0 := fun i => by
    rw [List.getD_eq_getElem?_getD]
    cases h : col[i]? with
    | none => simp
    | some x => exact hc x (List.mem_of_getElem? h)
  have hkK : (0 : K) < (k : K) := by exact_mod_cast hk
  have hpos : 0 < ∑ j ∈ Finset.range k, col.getD (w + j) 0 := by
    refine (h0.trans_lt hg).trans_le (Finset.sum_le_sum fun j _ => ?_)
    have : 0 ≤ |2 * (j : K) - ((k : K) - 1)| / (k : K) := div_nonneg (abs_nonneg _) hkK.le
    calc _ ≤ 1 * col.getD (w + j) 0 := mul_le_mul_of_nonneg_right (by linarith) (hn _)
      _ = _ := one_mul _
  rw [centroid]
  refine ⟨?_, ?_⟩
  · have : 0 ≤ (∑ j ∈ Finset.range k, (j : K) * col.getD (w + j) 0) / ∑ j ∈ Finset.range k, col.getD (w + j) 0 :=
      div_nonneg (Finset.sum_nonneg fun j _ => mul_nonneg (Nat.cast_nonneg j) (hn _)) hpos.le
    linarith
  · have : (∑ j ∈ Finset.range k, (j : K) * col.getD (w + j) 0) / (∑ j ∈ Finset.range k, col.getD (w + j) 0) ≤ (k : K) - 1 := by
      rw [div_le_iff₀ hpos, Finset.mul_sum]
      refine Finset.sum_le_sum fun j hj => mul_le_mul_of_nonneg_right ?_ (hn _)
      have : j + 1 ≤ k := Finset.mem_range.1 hj
      have : ((j : K) + 1) ≤ (k : K) := by exact_mod_cast this
      linarith
    linarith

example : findLaser (K := ℚ) 1 (1 / 100) 3 0 0 (-1) 7 161 (fun _ => [0, 0, 1, 2, 1, 0, 0]) = .ok [(3, 80)] :=
  resOk (by decide +kernel)

/-- C87 in full: a column is reported whenever a window inside the rows is brighter than the limit. -/
def AllLinesFound (K : Type) [Field K] [LinearOrder K] : Prop :=
  ∀ (imgMax ratio : K) (k start : ℕ) (height width : ℕ) (img : ℕ → List K), 0 < ratio * imgMax →
    (∀ u, (img u).length = height) → ∀ ps, findLaser imgMax ratio k 0 start (-1) height width img = .ok ps →
    ∀ u w : ℕ, 80 ≤ u → u + 80 < width → start ≤ w → w + k ≤ height → ratio * imgMax < green k (img u) w → ∃ v, (v, u) ∈ ps

/-- A line in the last row is not found. -/
theorem C87_last_row_false : ¬ AllLinesFound ℚ := by
  intro h
  have h1 : findLaser (K := ℚ) 1 (1 / 100) 3 0 0 (-1) 5 161 (fun _ => [0, 0, 0, 0, 1]) = .ok [] := resOk (by decide +kernel)
  obtain ⟨v, hv⟩ := h 1 (1 / 100) 3 0 5 161 (fun _ => [0, 0, 0, 0, 1]) (by norm_num) (by simp) [] h1 80 2 (by omega) (by omega)
    (by omega) (by omega) (by norm_num [green, Finset.sum_range_succ])
  cases hv

/-! ## Pairs of images -/

private theorem nearestLoop_spec (t : K) (r : List K) : ∀ (ss pre : List K) (b : K × ℕ), r = pre ++ ss → pre ≠ [] →
    (∃ x, r[b.2]? = some x ∧ b.1 = |t - x|) → (∀ x ∈ pre, b.1 ≤ |t - x|) →
    (∃ x, r[(nearestLoop t ss pre.length b).2]? = some x ∧ (nearestLoop t ss pre.length b).1 = |t - x|) ∧
      ∀ x ∈ r, (nearestLoop t ss pre.length b).1 ≤ |t - x|
  | [], pre, b, hr, _, h1, h2 => by
    rw [List.append_nil] at hr; subst hr
    exact ⟨h1, h2⟩
  | s :: ss, pre, b, hr, hp, h1, h2 => by
    have hr' : r = (pre ++ [s]) ++ ss := by rw [hr]; simp
    have hs : r[pre.length]? = some s := by rw [hr]; simp
    rw [nearestLoop]
    have := nearestLoop_spec t r ss (pre ++ [s]) (if |t - s| < b.1 then (|t - s|, pre.length) else b) hr' (by simp) (by
      split_ifs with h
      · exact ⟨s, hs, rfl⟩
      · exact h1) (by
      intro x hx
      rcases List.mem_append.1 hx with hx | hx
      · split_ifs with h
        · exact h.le.trans (h2 x hx)
        · exact h2 x hx
      · rw [List.mem_singleton.1 hx]
        split_ifs with h
        · exact le_rfl
        · exact not_lt.1 h)
    simpa using this

/-- C88 (synchronisation): each left image is paired with a right image nearest in time, if that is less than 50 ms away,
and with none otherwise. -/
theorem C88_sync (left right : List K) (hr : right ≠ []) :
    ∃ sync, syncByStamp left right = .ok sync ∧ (sync.map Prod.fst).Pairwise (· < ·) ∧
      (∀ p ∈ sync, ∃ t s, left[p.1]? = some t ∧ right[p.2]? = some s ∧ |t - s| < 5 / 100 ∧ ∀ s' ∈ right, |t - s| ≤ |t - s'|) ∧
      ∀ (i : ℕ) t, left[i]? = some t → (∃ s ∈ right, |t - s| < 5 / 100) → ∃ j, (i, j) ∈ sync := by
  obtain ⟨s, ss, rfl⟩ := List.exists_cons_of_ne_nil hr
  have hn : ∀ t : K, (∃ x, (s :: ss)[(nearestLoop t ss 1 (|t - s|, 0)).2]? = some x ∧
      (nearestLoop t ss 1 (|t - s|, 0)).1 = |t - x|) ∧ ∀ x ∈ s :: ss, (nearestLoop t ss 1 (|t - s|, 0)).1 ≤ |t - x| := fun t =>
    nearestLoop_spec t (s :: ss) ss [s] (|t - s|, 0) rfl (by simp) ⟨s, rfl, rfl⟩ (by simp)
  refine ⟨_, rfl, ?_, ?_, ?_⟩
  · have hsub : ((((left.mapIdx fun i t => (i, nearestLoop t ss 1 (|t - s|, 0))).filterMap fun p =>
        if p.2.1 < 5 / 100 then some (p.1, p.2.2) else none)).map Prod.fst).Sublist (List.range left.length) := by
      have h1 : (left.mapIdx fun i t => (i, nearestLoop t ss 1 (|t - s|, 0))).map Prod.fst = List.range left.length := by
        apply List.ext_getElem <;> simp
      rw [← h1]
      generalize (left.mapIdx fun i t => (i, nearestLoop t ss 1 (|t - s|, 0))) = l
      induction l with
      | nil => simp
      | cons a l ih =>
        rw [List.filterMap_cons]
        split_ifs with h
        · simpa using ih
        · simp only [List.map_cons]; exact ih.cons _
    exact List.pairwise_lt_range.sublist hsub
  · rintro ⟨i, j⟩ hp
    obtain ⟨⟨i', b⟩, hq, e⟩ := List.mem_filterMap.1 hp
    obtain ⟨n, hn', e2⟩ := List.mem_mapIdx.1 hq
    simp only [Prod.mk.injEq] at e2
    obtain ⟨rfl, rfl⟩ := e2
    by_cases hlt : (nearestLoop left[n] ss 1 (|left[n] - s|, 0)).1 < 5 / 100
    · rw [if_pos hlt, Option.some_inj, Prod.mk.injEq] at e
      obtain ⟨rfl, rfl⟩ := e
      obtain ⟨⟨x, hx1, hx2⟩, hx3⟩ := hn left[n]
      rw [hx2] at hlt hx3
      exact ⟨left[n], x, List.getElem?_eq_getElem hn', hx1, hlt, hx3⟩
    · rw [if_neg hlt] at e; cases e
  · rintro i t ht ⟨x, hx, hlt⟩
    obtain ⟨hi, rfl⟩ := List.getElem?_eq_some_iff.1 ht
    refine ⟨(nearestLoop left[i] ss 1 (|left[i] - s|, 0)).2, List.mem_filterMap.2
      ⟨(i, nearestLoop left[i] ss 1 (|left[i] - s|, 0)), List.mem_mapIdx.2 ⟨i, hi, rfl⟩, ?_⟩⟩
    rw [if_pos (((hn left[i]).2 x hx).trans_lt hlt)]

/-- C88 (selection): of `n` pairs, `m` different ones are chosen, in order. -/
theorem C88_spread (m n : ℕ) (hm : 0 < m) (h : m ≤ n) :
    (spread m n).length = m ∧ (spread m n).Pairwise (· < ·) ∧ ∀ s ∈ spread m n, s < n := by
  refine ⟨by simp [spread], ?_, ?_⟩
  · rw [spread, List.pairwise_map]
    refine List.pairwise_lt_range.imp fun {a b} hab => ?_
    have h1 : a * n / m + 1 ≤ b * n / m := by
      rw [← Nat.add_div_right _ hm]
      apply Nat.div_le_div_right
      calc a * n + m ≤ a * n + n := by omega
        _ = (a + 1) * n := by ring
        _ ≤ b * n := Nat.mul_le_mul_right _ hab
    omega
  · intro s hs
    obtain ⟨i, hi, rfl⟩ := List.mem_map.1 hs
    rw [List.mem_range] at hi
    have h1 : i * n / m ≤ (m - 1) * n / m := Nat.div_le_div_right (Nat.mul_le_mul_right _ (by omega))
    have h2 : (m - 1) * n / m + n / m ≤ n := by
      have := Nat.div_add_div_le_add_div (x := (m - 1) * n) (y := n) (z := m)
      have e : (m - 1) * n + n = m * n := by rw [← Nat.succ_mul]; congr 1; omega
      rw [e, Nat.mul_div_cancel_left _ hm] at this
      exact this
    have h3 : n / (2 * m) < n / m := by
      rw [Nat.mul_comm, ← Nat.div_div_eq_div_mul]
      have : 1 ≤ n / m := (Nat.le_div_iff_mul_le hm).2 (by omega)
      omega
    omega

example : spread 3 10 = [1, 4, 7] := by decide

private theorem mapM_ok {α β : Type} (f : α → Res β) (g : α → β) : ∀ l : List α, (∀ a ∈ l, f a = .ok (g a)) → l.mapM f = .ok (l.map g)
  | [], _ => rfl
  | a :: l, h => by
    rw [List.mapM_cons, h a (by simp), mapM_ok f g l (fun x hx => h x (by simp [hx]))]
    rfl

/-- C88, for more than 500 left images that all have a partner: 500 different synchronised pairs are processed. -/
theorem C88_pairs_partial (left right : List K) (h : 500 < left.length)
    (hp : ∀ t ∈ left, ∃ s ∈ right, |t - s| < 5 / 100) :
    ∃ pairs, calPairs left right = .ok pairs ∧ pairs.length = 500 ∧ (pairs.map Prod.fst).Pairwise (· < ·) ∧
      ∀ p ∈ pairs, ∃ t s, left[p.1]? = some t ∧ right[p.2]? = some s ∧ |t - s| < 5 / 100 := by
  have hl : left ≠ [] := by rintro rfl; simp at h
  have hr : right ≠ [] := by
    rintro rfl
    obtain ⟨t, ht⟩ := List.exists_mem_of_ne_nil _ hl
    obtain ⟨s, hs, -⟩ := hp t ht
    cases hs
  obtain ⟨sync, h1, h2, h3, h4⟩ := C88_sync left right hr
  have hlen : left.length ≤ sync.length := by
    have hsub : List.range left.length ⊆ sync.map Prod.fst := fun i hi => by
      rw [List.mem_range] at hi
      obtain ⟨j, hj⟩ := h4 i left[i] (List.getElem?_eq_getElem hi) (hp _ (List.getElem_mem _))
      exact List.mem_map.2 ⟨_, hj, rfl⟩
    have := (List.nodup_range.subperm hsub).length_le
    simpa using this
  obtain ⟨g1, g2, g3⟩ := C88_spread 500 left.length (by omega) (by omega)
  have hget : ∀ s ∈ spread 500 left.length, pyGet sync (s : Int) = .ok (sync.getD s (0, 0)) := fun s hs => by
    have hs' : s < sync.length := (g3 s hs).trans_le hlen
    rw [pyGet_nat sync s sync[s] (List.getElem?_eq_getElem hs')]
    simp [List.getD_eq_getElem?_getD, hs']
  have hmap := mapM_ok (fun s : ℕ => pyGet sync (s : Int)) (fun s => sync.getD s (0, 0)) _ hget
  refine ⟨(spread 500 left.length).map fun s => sync.getD s (0, 0), ?_, by simp [g1], ?_, ?_⟩
  · rw [calPairs, if_neg hl, h1]
    simp only [bind, Except.bind, if_pos h]
    exact hmap
  · rw [List.map_map, List.pairwise_map]
    refine List.Pairwise.imp_of_mem ?_ g2
    intro a b ha hb hab
    have ha' : a < sync.length := (g3 a ha).trans_le hlen
    have hb' : b < sync.length := (g3 b hb).trans_le hlen
    have := List.pairwise_iff_getElem.1 h2 a b (by simpa using ha') (by simpa using hb') hab
    simpa [List.getD_eq_getElem?_getD, ha', hb'] using this
  · intro p hp
    obtain ⟨s, hs, rfl⟩ := List.mem_map.1 hp
    have hs' : s < sync.length := (g3 s hs).trans_le hlen
    have hm : sync.getD s (0, 0) ∈ sync := by
      simp [List.getD_eq_getElem?_getD, hs']
    obtain ⟨t, x, e1, e2, e3, -⟩ := h3 _ hm
    exact ⟨t, x, e1, e2, e3⟩

example : ∃ left right : List ℚ, 500 < left.length ∧ left ≠ right ∧ ∀ t ∈ left, ∃ s ∈ right, |t - s| < 5 / 100 :=
  ⟨List.replicate 501 7, [9, 7], by rw [List.length_replicate]; omega, by
    intro h
    have := congrArg List.length h
    rw [List.length_replicate] at this
    simp only [List.length_cons, List.length_nil] at this
    omega, fun t ht => ⟨7, by simp, by rw [List.eq_of_mem_replicate ht]; norm_num⟩⟩

/-- C88 in full: whatever the number of images, only synchronised pairs are processed. -/
def OnlySynchronised (K : Type) [Field K] [LinearOrder K] : Prop :=
  ∀ (left right : List K) pairs, calPairs left right = .ok pairs →
    ∀ p ∈ pairs, ∃ t s, left[p.1]? = some t ∧ right[p.2]? = some s ∧ |t - s| < 5 / 100

/-- With at most 500 left images the synchronisation is not used: the images are paired by position. -/
theorem C88_few_images_false : ¬ OnlySynchronised ℚ := by
  intro h
  have h1 : calPairs (K := ℚ) [1, 2] [2] = .ok [(0, 0)] := resOk (by decide +kernel)
  obtain ⟨t, s, h2, h3, h4⟩ := h _ _ _ h1 (0, 0) (by simp)
  simp only [List.getElem?_cons_zero, Option.some.injEq] at h2 h3
  subst h2 h3
  norm_num at h4

/-- With more than 500 left images none of which has a partner the program ends with an `IndexError`; the same happens
whenever the last selected position is missing. -/
theorem C88_missing_partners_false (left right : List K) (h : 500 < left.length) (hr : right ≠ [])
    (hp : ∀ t ∈ left, ∀ s ∈ right, ¬ |t - s| < 5 / 100) : calPairs left right = .error .indexError := by
  have hl : left ≠ [] := by rintro rfl; simp at h
  obtain ⟨sync, h1, -, h3, -⟩ := C88_sync left right hr
  have hs : sync = [] := by
    rw [List.eq_nil_iff_forall_not_mem]
    intro p hp'
    obtain ⟨t, s, e1, e2, e3, -⟩ := h3 p hp'
    exact hp t (List.mem_of_getElem? e1) s (List.mem_of_getElem? e2) e3
  subst hs
  rw [calPairs, if_neg hl, h1]
  simp only [bind, Except.bind, if_pos h]
  have hc : spread 500 left.length = (0 * left.length / 500 + left.length / (2 * 500)) ::
      (List.range 499).map fun i => (i + 1) * left.length / 500 + left.length / (2 * 500) := by
    rw [spread, List.range_succ_eq_map, List.map_cons, List.map_map]; rfl
  rw [hc, List.mapM_cons]
  have : pyGet ([] : List (ℕ × ℕ)) ((0 * left.length / 500 + left.length / (2 * 500) : ℕ) : Int) = .error .indexError := by
    have h0 : ¬ (((0 * left.length / 500 + left.length / (2 * 500) : ℕ) : Int) < 0) := by omega
    simp only [pyGet, if_neg h0]; simp
  rw [this]; rfl

/-! ## Point clouds -/

omit [Field K] in
private theorem seekPeak_seekPeak (u u' : K) (h : u ≤ u') : ∀ qs : List (K × K), seekPeak u' (seekPeak u qs) = seekPeak u' qs
  | [] => rfl
  | q :: qs => by
    rw [seekPeak]
    split_ifs with hq
    · rfl
    · rw [seekPeak_seekPeak u u' h qs]
      conv_rhs => rw [seekPeak]
      rw [if_neg (fun h' => hq (h.trans h'))]

private theorem pointCloud_seek {P : Type} (tri : K × K → K × K → P) (depth : K × K → K × K → K) (u : K) (ps qs : List (K × K))
    (h : ∀ p ∈ ps, u ≤ p.2) : pointCloud tri depth ps (seekPeak u qs) = pointCloud tri depth ps qs := by
  cases ps with
  | nil => rfl
  | cons p ps => rw [pointCloud, pointCloud, seekPeak_seekPeak u p.2 (h p (by simp))]

omit [Field K] in
private theorem seekPeak_find (u : K) : ∀ qs : List (K × K), qs.Pairwise (fun a b => a.2 < b.2) →
    (qs.find? fun q => q.2 = u) = (seekPeak u qs).head?.filter fun q => q.2 = u
  | [], _ => rfl
  | q :: qs, h => by
    rw [seekPeak]
    by_cases hq : q.2 ≥ u
    · rw [if_pos hq]
      by_cases he : q.2 = u
      · simp [he, Option.filter]
      · rw [List.find?_cons_of_neg (by simpa using he)]
        have : qs.find? (fun q => decide (q.2 = u)) = none := by
          rw [List.find?_eq_none]
          intro x hx hx2
          have := List.rel_of_pairwise_cons h hx
          have e : x.2 = u := by simpa using hx2
          rw [e] at this
          exact absurd hq (not_le.2 this)
        rw [this]; simp [he, Option.filter]
    · rw [if_neg hq, List.find?_cons_of_neg (by simpa using fun e : q.2 = u => hq e.ge)]
      exact seekPeak_find u qs h.of_cons

/-- C89: two detections are triangulated exactly if they are in the same column (columns are integers, each at most once,
in order); points behind the camera are left out, and both kinds are counted. -/
theorem C89_cloud [IsStrictOrderedRing K] {P : Type} (tri : K × K → K × K → P) (depth : K × K → K × K → K) (pk1 pk2 : List (K × K))
    (h1 : pk1.Pairwise fun a b => a.2 < b.2) (h2 : pk2.Pairwise fun a b => a.2 < b.2)
    (hi : ∀ p ∈ pk1 ++ pk2, ∃ u : ℤ, p.2 = (u : K)) :
    let pairs := pk1.filterMap fun p => (pk2.find? fun q => q.2 = p.2).map fun q => (p, q)
    pointCloud tri depth pk1 pk2 =
      ((pairs.filter fun x => 0 ≤ depth x.1 x.2).map (fun x => tri x.1 x.2),
        (pairs.filter fun x => 0 ≤ depth x.1 x.2).length, (pairs.filter fun x => depth x.1 x.2 < 0).length) := by
  induction pk1 with
  | nil => rfl
  | cons p ps ih =>
    have ih := ih h1.of_cons (fun x hx => hi x (by rw [List.cons_append]; exact List.mem_cons_of_mem _ hx))
    simp only at ih ⊢
    have hseek := pointCloud_seek tri depth p.2 ps pk2 (fun x hx => (List.rel_of_pairwise_cons h1 hx).le)
    have hf := seekPeak_find p.2 pk2 h2
    have hsub : ∀ (qs : List (K × K)) x, x ∈ seekPeak p.2 qs → x ∈ qs := by
      intro qs
      induction qs with
      | nil => simp [seekPeak]
      | cons q qs ih => 
        intro x hx
        rw [seekPeak] at hx
        split_ifs at hx
        · exact hx
        · exact List.mem_cons_of_mem _ (ih x hx)
    rw [pointCloud, List.filterMap_cons]
    cases hs : seekPeak p.2 pk2 with
    | nil =>
      rw [hs] at hf hseek
      simp only [List.head?_nil, Option.filter_none] at hf
      simp only [hf, Option.map_none]
      rw [hseek, ih]
    | cons q qs =>
      rw [hs] at hf hseek
      have hge : q.2 ≥ p.2 := by
        have : ∀ (l : List (K × K)) q qs, seekPeak p.2 l = q :: qs → q.2 ≥ p.2 := by
          intro l
          induction l with
          | nil => intro q qs h; cases h
          | cons a l ih =>
            intro q qs h
            rw [seekPeak] at h
            split_ifs at h with ha
            · injection h with h _; rw [← h]; exact ha
            · exact ih q qs h
        exact this pk2 q qs hs
      simp only [hseek, ih]
      obtain ⟨a, ha⟩ := hi p (by simp)
      obtain ⟨b, hb⟩ := hi q (List.mem_append_right _ (hsub pk2 q (by rw [hs]; simp)))
      have hiff : |q.2 - p.2| < 1 ↔ q.2 = p.2 := by
        rw [ha, hb]
        constructor
        · intro h
          have : |b - a| < 1 := by exact_mod_cast h
          have : b = a := by have := abs_lt.1 this; omega
          rw [this]
        · intro h; rw [h]; simp
      by_cases he : q.2 = p.2
      · rw [if_pos (hiff.2 he)]
        have hf' : (pk2.find? fun x => decide (x.2 = p.2)) = some q := by rw [hf]; simp [he]
        simp only [hf', Option.map_some]
        by_cases hd : depth p q < 0
        · rw [if_pos hd]
          simp [hd, not_le.2 hd]
        · rw [if_neg hd]
          simp [hd, not_lt.1 hd]
      · rw [if_neg (fun h => he (hiff.1 h))]
        have hf' : (pk2.find? fun x => decide (x.2 = p.2)) = none := by rw [hf]; simp [he]
        simp only [hf', Option.map_none]

example : pointCloud (K := ℚ) (fun p q => (p.1, q.1)) (fun p _ => p.1) [(1, 80), (-2, 82), (3, 83)] [(7, 80), (8, 81), (9, 82), (10, 83)] =
    ([(1, 7), (3, 10)], 2, 1) := by decide +kernel

/-! ## Stratified sampling -/

open Classical in
private theorem stratLoop_ok [IsStrictOrderedRing K] [FloorRing K] {P : Type} (z : P → K) (lo hi : K) (n maxPts : ℕ) (hn : 0 < n) (hlt : lo < hi) :
    ∀ (ps : List P) (counts : List ℕ), counts.length = n → (∀ c ∈ counts, c ≤ max maxPts 1) →
      ∃ r, stratLoop z lo hi ((hi - lo) / (n : K)) maxPts ps counts = .ok r ∧ r.Sublist ps ∧
        (∀ p ∈ r, lo ≤ z p ∧ z p < hi) ∧
        ∀ (b c : ℕ), counts[b]? = some c → c + r.countP (fun p => decide (InBin lo hi n b (z p))) =
          min (c + ps.countP (fun p => decide (InBin lo hi n b (z p)))) (max maxPts 1)
  | [], counts, _, hc => ⟨[], rfl, List.Sublist.slnil, by simp, fun b c hb => by
      have := hc c (List.mem_of_getElem? hb)
      simp only [List.countP_nil, Nat.add_zero]; omega⟩
  | p :: ps, counts, hl, hc => by
    have hnK : (0 : K) < (n : K) := by exact_mod_cast hn
    have hsz : 0 < (hi - lo) / (n : K) := div_pos (sub_pos.2 hlt) hnK
    rw [stratLoop]
    by_cases hr : lo ≤ z p ∧ z p < hi
    · rw [if_pos hr]
      have h0 : 0 ≤ ⌊(z p - lo) / ((hi - lo) / (n : K))⌋ := Int.floor_nonneg.2 (div_nonneg (sub_nonneg.2 hr.1) hsz.le)
      obtain ⟨b, hb⟩ := Int.eq_ofNat_of_zero_le h0
      have hbn : b < n := by
        have h1 : ((b : ℤ) : K) ≤ (z p - lo) / ((hi - lo) / (n : K)) := by rw [← hb]; exact Int.floor_le _
        have h2 : (z p - lo) / ((hi - lo) / (n : K)) < (n : K) := by
          rw [div_lt_iff₀ hsz, mul_div_assoc', mul_comm, mul_div_assoc, div_self hnK.ne', mul_one]
          linarith [hr.2]
        have h3 : ((b : ℤ) : K) < (n : K) := h1.trans_lt h2
        exact_mod_cast h3
      have hbin : ∀ m : ℕ, InBin lo hi n m (z p) ↔ m = b := fun m => by
        have h1 := Int.floor_eq_iff.1 hb
        rw [le_div_iff₀ hsz, div_lt_iff₀ hsz] at h1
        constructor
        · rintro ⟨h2, h3⟩
          have : ⌊(z p - lo) / ((hi - lo) / (n : K))⌋ = (m : ℤ) := by
            rw [Int.floor_eq_iff, le_div_iff₀ hsz, div_lt_iff₀ hsz]
            refine ⟨?_, ?_⟩ <;> push_cast <;> linarith
          rw [this] at hb; exact_mod_cast hb
        · rintro rfl
          push_cast at h1
          exact ⟨by linarith [h1.1], by linarith [h1.2]⟩
      rw [hb]
      simp only [Int.toNat_natCast]
      obtain ⟨c, hcb⟩ : ∃ c, counts[b]? = some c := ⟨_, List.getElem?_eq_getElem (by omega)⟩
      have hcM := hc c (List.mem_of_getElem? hcb)
      simp only [hcb]
      by_cases hcc : c = 0 ∨ c < maxPts
      · rw [if_pos hcc]
        obtain ⟨r, h1, h2, h3, h4⟩ := stratLoop_ok z lo hi n maxPts hn hlt ps (counts.set b (c + 1)) (by simpa using hl) (by
          intro x hx
          rcases List.mem_or_eq_of_mem_set hx with h | rfl
          · exact hc x h
          · omega)
        refine ⟨p :: r, by simp only [bind, Except.bind, h1], h2.cons_cons p, fun q hq => ?_, fun m d hm => ?_⟩
        · rcases List.mem_cons.1 hq with rfl | hq
          · exact hr
          · exact h3 q hq
        · by_cases hmb : m = b
          · subst hmb
            rw [hcb] at hm
            obtain rfl := Option.some.inj hm
            have := h4 m (c + 1) (by rw [List.getElem?_set_self (by omega)])
            rw [List.countP_cons_of_pos (by simpa using (hbin m).2 rfl), List.countP_cons_of_pos (by simpa using (hbin m).2 rfl)]
            omega
          · have := h4 m d (by rw [List.getElem?_set_ne (Ne.symm hmb)]; exact hm)
            rw [List.countP_cons_of_neg (by simpa using fun h => hmb ((hbin m).1 h)),
              List.countP_cons_of_neg (by simpa using fun h => hmb ((hbin m).1 h))]
            exact this
      · rw [if_neg hcc]
        obtain ⟨r, h1, h2, h3, h4⟩ := stratLoop_ok z lo hi n maxPts hn hlt ps counts hl hc
        refine ⟨r, h1, h2.cons p, h3, fun m d hm => ?_⟩
        have := h4 m d hm
        by_cases hmb : m = b
        · subst hmb
          rw [hcb] at hm
          obtain rfl := Option.some.inj hm
          rw [List.countP_cons_of_pos (by simpa using (hbin m).2 rfl)]
          omega
        · rw [List.countP_cons_of_neg (by simpa using fun h => hmb ((hbin m).1 h))]
          exact this
    · rw [if_neg hr]
      obtain ⟨r, h1, h2, h3, h4⟩ := stratLoop_ok z lo hi n maxPts hn hlt ps counts hl hc
      refine ⟨r, h1, h2.cons p, h3, fun m d hm => ?_⟩
      have hm' : m < n := by rw [← hl]; exact (List.getElem?_eq_some_iff.1 hm).1
      have hno : ¬ InBin lo hi n m (z p) := by
        rintro ⟨h5, h6⟩
        refine hr ⟨?_, ?_⟩
        · have : 0 ≤ (m : K) * ((hi - lo) / (n : K)) := mul_nonneg (Nat.cast_nonneg _) hsz.le
          linarith
        · have h7 : ((m : K) + 1) ≤ (n : K) := by exact_mod_cast hm'
          have h8 : ((m : K) + 1) * ((hi - lo) / (n : K)) ≤ (n : K) * ((hi - lo) / (n : K)) := mul_le_mul_of_nonneg_right h7 hsz.le
          have h9 : (n : K) * ((hi - lo) / (n : K)) = hi - lo := mul_div_cancel₀ _ hnK.ne'
          linarith
      rw [List.countP_cons_of_neg (by simpa using hno)]
      exact h4 m d hm

open Classical in
/-- C90: the sampled points are points of the cloud between the limits; every bin holds all its points if they are not more
than the maximum, and the maximum otherwise. For a positive maximum and a range that is not empty the call never fails. -/
theorem C90_stratified_partial [IsStrictOrderedRing K] [FloorRing K] {P : Type} (z : P → K) (lo hi : K) (n maxPts : ℕ) (cloud : List P)
    (hn : 0 < n) (hlt : lo < hi) (hm : 0 < maxPts) :
    ∃ r, zStratified z lo hi n maxPts cloud = .ok r ∧ r.Sublist cloud ∧ (∀ p ∈ r, lo ≤ z p ∧ z p < hi) ∧
      ∀ b < n, r.countP (fun p => decide (InBin lo hi n b (z p))) =
        min (cloud.countP fun p => decide (InBin lo hi n b (z p))) maxPts := by
  obtain ⟨r, h1, h2, h3, h4⟩ := stratLoop_ok z lo hi n maxPts hn hlt cloud (List.replicate n 0) (by simp) (by
    intro c hc; rw [List.eq_of_mem_replicate hc]; omega)
  refine ⟨r, by rw [zStratified, if_neg (by omega)]; exact h1, h2, h3, fun b hb => ?_⟩
  have := h4 b 0 (by simp [hb])
  rw [Nat.zero_add, Nat.zero_add, max_eq_left (by omega)] at this
  exact this

example : zStratified (K := ℚ) id 1 5 2 2 [1, 2, 0, 2.5, 3, 5, 4.5, 4] = .ok [1, 2, 3, 4.5] := resOk (by decide +kernel)

/-- With a maximum of zero points one point per bin is kept. -/
theorem C90_zero_maximum_false : ¬ ∀ (z : ℚ → ℚ) (lo hi : ℚ) (n maxPts : ℕ) (cloud r : List ℚ), 0 < n → lo < hi →
    zStratified z lo hi n maxPts cloud = .ok r → ∀ b < n, r.countP (fun p => decide (lo + b * ((hi - lo) / n) ≤ z p ∧
      z p < lo + (b + 1) * ((hi - lo) / n))) ≤ maxPts := by
  intro h
  have h1 : zStratified (K := ℚ) id 0 1 1 0 [1 / 2] = .ok [1 / 2] := resOk (by decide +kernel)
  have := h id 0 1 1 0 [1 / 2] [1 / 2] (by omega) (by norm_num) h1 0 (by omega)
  revert this
  decide +kernel

end

/-! ## Detections kept in files -/

private theorem readItems_some {P : Type} : ∀ l : List P, readItems (l.map some) = .ok l
  | [] => rfl
  | a :: l => by rw [List.map_cons, readItems, readItems_some l]; rfl

/-- C91: a second run with the same settings, on an image with detections, reads the detections of the first run and leaves
the file unchanged. -/
theorem C91_reread_partial {P : Type} (two : Bool) (found foundB : List P) (h1 : found ≠ []) (h2 : two = true → foundB ≠ [])
    (file : Option (LaserFile P)) :
    ∃ r f, laserPixels true two found foundB file = .ok (r, f) ∧ r = (found, if two then foundB else []) ∧
      ∀ found' foundB', laserPixels false two found' foundB' (some f) = .ok (r, f) := by
  refine ⟨_, _, by cases file <;> rfl, rfl, fun found' foundB' => ?_⟩
  have e1 : readItems (yamlItems found) = .ok found := by rw [yamlItems, if_neg h1, readItems_some]
  cases two with
  | false => simp [laserPixels, readLaser, e1, bind, Except.bind, Except.map]
  | true =>
    have e2 : readItems (yamlItems foundB) = .ok foundB := by rw [yamlItems, if_neg (h2 rfl), readItems_some]
    simp [laserPixels, readLaser, e1, e2, bind, Except.bind, Except.map]

example : laserPixels (P := ℕ) false true [] [] (some ⟨yamlItems [3, 4], some (yamlItems [5])⟩) =
    .ok (([3, 4], [5]), ⟨[some 3, some 4], some [some 5]⟩) := rfl

/-- C91 in full: what a first run found, a second run with the same settings returns. -/
def RereadWorks (P : Type) : Prop :=
  ∀ (two : Bool) (found foundB : List P) r f, laserPixels false two found foundB none = .ok (r, f) →
    laserPixels false two found foundB (some f) = .ok (r, f)

/-- An image without detections makes the second run fail. -/
theorem C91_no_detection_false : ¬ RereadWorks ℕ := by
  intro h
  have := h false [] [] _ _ rfl
  cases this

/-- After a run for one laser, a run for two lasers returns no detections of the second. -/
theorem C91_second_laser_false : ¬ ∀ (found foundB : List ℕ) (r : List ℕ × List ℕ) f,
    laserPixels false false found foundB none = .ok (r, f) →
    ∃ f', laserPixels false true found foundB (some f) = .ok ((found, foundB), f') := by
  intro h
  obtain ⟨f', hf⟩ := h [1] [2] _ _ rfl
  have h1 := Except.ok.inj hf
  have h2 := congrArg (fun x => x.1.2) h1
  cases h2

end Oplab.Props
