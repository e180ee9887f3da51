import Verif.Spec.NavStats
import Mathlib.Tactic.Linarith
import Mathlib.Tactic.NormNum
import Mathlib.Tactic.Ring
import Mathlib.Analysis.MeanInequalities

/-!
C204: statistics of an acquisition.
-/

namespace Oplab.Props
open Oplab Oplab.Spec Real

private theorem seriesMax_spec : ∀ (m : ℝ) (l : List ℝ), (seriesMax m l = m ∨ seriesMax m l ∈ l) ∧ m ≤ seriesMax m l ∧ ∀ t ∈ l, t ≤ seriesMax m l
  | m, [] => by simp [seriesMax]
  | m, t :: ts => by
    obtain ⟨h1, h2, h3⟩ := seriesMax_spec (if m < t then t else m) ts
    simp only [seriesMax]
    by_cases h : m < t
    · rw [if_pos h] at h1 h2 h3 ⊢
      refine ⟨?_, by linarith, ?_⟩
      · rcases h1 with h1 | h1
        · right; rw [h1]; exact List.mem_cons_self
        · right; exact List.mem_cons_of_mem _ h1
      · intro x hx
        rcases List.mem_cons.mp hx with rfl | hx
        · exact h2
        · exact h3 x hx
    · rw [if_neg h] at h1 h2 h3 ⊢
      refine ⟨?_, h2, ?_⟩
      · rcases h1 with h1 | h1
        · left; exact h1
        · right; exact List.mem_cons_of_mem _ h1
      · intro x hx
        rcases List.mem_cons.mp hx with rfl | hx
        · linarith [not_lt.mp h]
        · exact h3 x hx

private theorem seriesMin_spec : ∀ (m : ℝ) (l : List ℝ), (seriesMin m l = m ∨ seriesMin m l ∈ l) ∧ seriesMin m l ≤ m ∧ ∀ t ∈ l, seriesMin m l ≤ t
  | m, [] => by simp [seriesMin]
  | m, t :: ts => by
    obtain ⟨h1, h2, h3⟩ := seriesMin_spec (if t < m then t else m) ts
    simp only [seriesMin]
    by_cases h : t < m
    · rw [if_pos h] at h1 h2 h3 ⊢
      refine ⟨?_, by linarith, ?_⟩
      · rcases h1 with h1 | h1
        · right; rw [h1]; exact List.mem_cons_self
        · right; exact List.mem_cons_of_mem _ h1
      · intro x hx
        rcases List.mem_cons.mp hx with rfl | hx
        · exact h2
        · exact h3 x hx
    · rw [if_neg h] at h1 h2 h3 ⊢
      refine ⟨?_, h2, ?_⟩
      · rcases h1 with h1 | h1
        · left; exact h1
        · right; exact List.mem_cons_of_mem _ h1
      · intro x hx
        rcases List.mem_cons.mp hx with rfl | hx
        · linarith [not_lt.mp h]
        · exact h3 x hx

private theorem step_sum : ∀ rows : List StatRow, (stepDistances rows).sum = trackLength rows
  | [] => rfl
  | [_] => rfl
  | a :: b :: rest => by
    have := step_sum (b :: rest)
    simp only [stepDistances, trackLength, List.sum_cons, this, planeDistance]
    congr 1
    rw [sqrt_eq_rpow]
    norm_num

private theorem step_surface (alpha : ℝ) : ∀ rows : List StatRow, (stepSurfaces alpha rows).sum = sweptSurface alpha rows
  | [] => rfl
  | [_] => rfl
  | a :: b :: rest => by
    have := step_surface alpha (b :: rest)
    simp only [stepSurfaces, List.tail_cons] at this
    simp only [stepSurfaces, stepDistances, List.tail_cons, List.zipWith_cons_cons, List.sum_cons, sweptSurface, this,
      planeDistance, swathWidth]
    congr 1
    rw [sqrt_eq_rpow]
    norm_num
    ring_nf

open Classical in
/-- What the script computes, in one piece. -/
private theorem stats_ok (threshold alpha : ℝ) (start stop : Option ℝ) (rows : List StatRow) (st : NavStats)
    (h : acquisitionStats threshold alpha start stop (some rows) = .ok st) :
    ∃ a rest, rows.filter (fun r => decide (WithinTimes start stop r ∧ r.altitude < threshold)) = a :: rest ∧
      st = { count := (a :: rest).length
             averageAltitude := ((a :: rest).map (·.altitude)).sum / (a :: rest).length
             distance := (stepDistances (a :: rest)).sum
             surface := (stepSurfaces alpha (a :: rest)).sum
             bottomTime := seriesMax a.time (rest.map (·.time)) - seriesMin a.time (rest.map (·.time))
             imagesDuring := (rows.filter fun r => decide (WithinTimes start stop r ∧ r.time ≥ seriesMin a.time (rest.map (·.time)) ∧
               r.time ≤ seriesMax a.time (rest.map (·.time)))).length } := by
  unfold acquisitionStats at h
  simp only at h
  split_ifs at h with h1 h2
  rw [List.filter_filter, List.filter_filter] at h
  have hf : (rows.filter fun r => decide (r.altitude < threshold) && decide (∀ s, stop = some s → r.time ≤ s) &&
      decide (∀ s, start = some s → r.time ≥ s)) =
      rows.filter fun r => decide (WithinTimes start stop r ∧ r.altitude < threshold) := by
    apply List.filter_congr
    intro r _
    rw [← Bool.decide_and, ← Bool.decide_and, decide_eq_decide]
    unfold WithinTimes
    tauto
  rw [hf] at h
  cases hl : rows.filter (fun r => decide (WithinTimes start stop r ∧ r.altitude < threshold)) with
  | nil => rw [hl] at h; cases h
  | cons a rest =>
    rw [hl] at h
    refine ⟨a, rest, rfl, ?_⟩
    injection h with h
    rw [← h]
    congr 2
    rw [List.filter_filter, List.filter_filter]
    apply List.filter_congr
    intro r _
    rw [← Bool.decide_and, ← Bool.decide_and, decide_eq_decide]
    unfold WithinTimes
    tauto

open Classical in
/-- C204: there are results exactly if some image is within the times asked for and below the threshold. -/
theorem C204_results (threshold alpha : ℝ) (start stop : Option ℝ) (rows : List StatRow) :
    (∃ st, acquisitionStats threshold alpha start stop (some rows) = .ok st) ↔
      ∃ r ∈ rows, WithinTimes start stop r ∧ r.altitude < threshold := by
  constructor
  · rintro ⟨st, h⟩
    obtain ⟨a, rest, hl, -⟩ := stats_ok threshold alpha start stop rows st h
    have ha : a ∈ rows.filter (fun r => decide (WithinTimes start stop r ∧ r.altitude < threshold)) := by
      rw [hl]; exact List.mem_cons_self
    obtain ⟨h1, h2⟩ := List.mem_filter.mp ha
    exact ⟨a, h1, by simpa using h2⟩
  · rintro ⟨r, hr, ht, ha⟩
    have hm : r ∈ (rows.filter fun r => decide (∀ s, start = some s → r.time ≥ s)).filter fun r =>
        decide (∀ s, stop = some s → r.time ≤ s) := by
      rw [List.mem_filter, List.mem_filter]
      exact ⟨⟨hr, decide_eq_true ht.1⟩, decide_eq_true ht.2⟩
    have hm2 : r ∈ ((rows.filter fun r => decide (∀ s, start = some s → r.time ≥ s)).filter fun r =>
        decide (∀ s, stop = some s → r.time ≤ s)).filter fun r => decide (r.altitude < threshold) := by
      rw [List.mem_filter]
      exact ⟨hm, decide_eq_true ha⟩
    unfold acquisitionStats
    simp only
    rw [if_neg (List.ne_nil_of_mem hr), if_neg (List.ne_nil_of_mem hm)]
    split
    · rename_i h0
      rw [h0] at hm2
      cases hm2
    · exact ⟨_, rfl⟩

open Classical in
/-- C204: images are counted exactly if they are within the times asked for and below the threshold; the average altitude is
theirs, and below the threshold; the bottom time reaches from the first to the last of them; the images during the bottom
time include all of them. -/
theorem C204_counts (threshold alpha : ℝ) (start stop : Option ℝ) (rows : List StatRow) (st : NavStats)
    (h : acquisitionStats threshold alpha start stop (some rows) = .ok st) :
    let low := rows.filter fun r => decide (WithinTimes start stop r ∧ r.altitude < threshold)
    st.count = low.length ∧ 0 < st.count ∧ st.averageAltitude = (low.map (·.altitude)).sum / low.length ∧
      st.averageAltitude < threshold ∧
      (∃ first ∈ low, ∃ last ∈ low, (∀ r ∈ low, first.time ≤ r.time ∧ r.time ≤ last.time) ∧
        st.bottomTime = last.time - first.time ∧
        st.imagesDuring = (rows.filter fun r => decide (WithinTimes start stop r ∧ first.time ≤ r.time ∧ r.time ≤ last.time)).length) ∧
      st.count ≤ st.imagesDuring := by
  obtain ⟨a, rest, hl, rfl⟩ := stats_ok threshold alpha start stop rows st h
  intro low
  have hlow : low = a :: rest := hl
  obtain ⟨x1, x2, x3⟩ := seriesMax_spec a.time (rest.map (·.time))
  obtain ⟨n1, n2, n3⟩ := seriesMin_spec a.time (rest.map (·.time))
  set tmax := seriesMax a.time (rest.map (·.time)) with hmax
  set tmin := seriesMin a.time (rest.map (·.time)) with hmin
  have hlast : ∃ last ∈ low, last.time = tmax := by
    rcases x1 with x1 | x1
    · exact ⟨a, by rw [hlow]; exact List.mem_cons_self, x1.symm⟩
    · obtain ⟨r, hr, hr'⟩ := List.mem_map.mp x1
      exact ⟨r, by rw [hlow]; exact List.mem_cons_of_mem _ hr, hr'⟩
  have hfirst : ∃ first ∈ low, first.time = tmin := by
    rcases n1 with n1 | n1
    · exact ⟨a, by rw [hlow]; exact List.mem_cons_self, n1.symm⟩
    · obtain ⟨r, hr, hr'⟩ := List.mem_map.mp n1
      exact ⟨r, by rw [hlow]; exact List.mem_cons_of_mem _ hr, hr'⟩
  obtain ⟨last, hlastm, hlast⟩ := hlast
  obtain ⟨first, hfirstm, hfirst⟩ := hfirst
  have hb : ∀ r ∈ low, first.time ≤ r.time ∧ r.time ≤ last.time := by
    intro r hr
    rw [hlow] at hr
    rw [hfirst, hlast]
    rcases List.mem_cons.mp hr with rfl | hr
    · exact ⟨n2, x2⟩
    · exact ⟨n3 _ (List.mem_map.mpr ⟨r, hr, rfl⟩), x3 _ (List.mem_map.mpr ⟨r, hr, rfl⟩)⟩
  have hmean : ((a :: rest).map (·.altitude)).sum < threshold * (a :: rest).length := by
    have hall : ∀ r ∈ a :: rest, r.altitude < threshold := by
      intro r hr
      rw [← hlow] at hr
      have := (List.mem_filter.mp hr).2
      simp only [decide_eq_true_eq] at this
      exact this.2
    have key : ∀ l : List StatRow, (∀ r ∈ l, r.altitude < threshold) → (l.map (·.altitude)).sum ≤ threshold * l.length := by
      intro l
      induction l with
      | nil => simp
      | cons r l ih =>
        intro hr
        have h1 := hr r List.mem_cons_self
        have h2 := ih fun x hx => hr x (List.mem_cons_of_mem _ hx)
        simp only [List.map_cons, List.sum_cons, List.length_cons]
        push_cast
        linarith
    have h1 := hall a List.mem_cons_self
    have h2 := key rest fun x hx => hall x (List.mem_cons_of_mem _ hx)
    simp only [List.map_cons, List.sum_cons, List.length_cons]
    push_cast
    linarith
  have hpos : (0 : ℝ) < (a :: rest).length := by simp only [List.length_cons]; positivity
  have heq : (rows.filter fun r => decide (WithinTimes start stop r ∧ first.time ≤ r.time ∧ r.time ≤ last.time)) =
      rows.filter fun r => decide (WithinTimes start stop r ∧ r.time ≥ tmin ∧ r.time ≤ tmax) := by
    rw [hfirst, hlast]
  refine ⟨by rw [hlow], by simp, by rw [hlow], ?_, ⟨first, hfirstm, last, hlastm, hb, by rw [hfirst, hlast], by rw [heq]⟩, ?_⟩
  · rw [div_lt_iff₀ hpos]; exact hmean
  · simp only
    rw [← hlow, ← heq]
    have hsub : low = (rows.filter fun r => decide (WithinTimes start stop r ∧ first.time ≤ r.time ∧ r.time ≤ last.time)).filter
        fun r => decide (r.altitude < threshold) := by
      rw [List.filter_filter]
      apply List.filter_congr
      intro r hr
      rw [← Bool.decide_and, decide_eq_decide]
      constructor
      · rintro ⟨h1, h2⟩
        have := hb r (List.mem_filter.mpr ⟨hr, by simpa using ⟨h1, h2⟩⟩)
        exact ⟨h2, h1, this⟩
      · rintro ⟨h1, h2, -⟩
        exact ⟨h2, h1⟩
    rw [hsub]
    exact List.length_filter_le _ _

open Classical in
/-- C204: the distance is the length of the track through the counted images in the order of the file. -/
theorem C204_distance (threshold alpha : ℝ) (start stop : Option ℝ) (rows : List StatRow) (st : NavStats)
    (h : acquisitionStats threshold alpha start stop (some rows) = .ok st) :
    st.distance = trackLength (rows.filter fun r => decide (WithinTimes start stop r ∧ r.altitude < threshold)) := by
  obtain ⟨a, rest, hl, rfl⟩ := stats_ok threshold alpha start stop rows st h
  rw [hl]
  exact step_sum _

open Classical in
/-- C204: the surface is that of the strips seen along this track, each as wide as what the camera sees at its end. -/
theorem C204_surface (threshold alpha : ℝ) (start stop : Option ℝ) (rows : List StatRow) (st : NavStats)
    (h : acquisitionStats threshold alpha start stop (some rows) = .ok st) :
    st.surface = sweptSurface alpha (rows.filter fun r => decide (WithinTimes start stop r ∧ r.altitude < threshold)) := by
  obtain ⟨a, rest, hl, rfl⟩ := stats_ok threshold alpha start stop rows st h
  rw [hl]
  exact step_surface alpha _

open Classical in
/-- C204: if all images within the times are below the threshold, this is the distance travelled at the bottom. -/
theorem C204_bottom_partial (threshold alpha : ℝ) (rows : List StatRow) (st : NavStats)
    (h : acquisitionStats threshold alpha none none (some rows) = .ok st) (hall : ∀ r ∈ rows, r.altitude < threshold) :
    st.distance = lowTrackLength threshold rows := by
  rw [C204_distance threshold alpha none none rows st h]
  have : (rows.filter fun r => decide (WithinTimes none none r ∧ r.altitude < threshold)) = rows := by
    rw [List.filter_eq_self]
    intro r hr
    simp [WithinTimes, hall r hr]
  rw [this]
  have key : ∀ l : List StatRow, (∀ r ∈ l, r.altitude < threshold) → trackLength l = lowTrackLength threshold l := by
    intro l
    induction l with
    | nil => intro _; rfl
    | cons a l ih =>
      cases l with
      | nil => intro _; rfl
      | cons b l =>
        intro hr
        have h1 := hr a List.mem_cons_self
        have h2 := hr b (List.mem_cons_of_mem _ List.mem_cons_self)
        simp only [trackLength, lowTrackLength, if_pos (And.intro h1 h2)]
        rw [ih fun x hx => hr x (List.mem_cons_of_mem _ hx)]
  exact key rows hall

/-- Three images, the second of them far above the bottom. -/
private def hop : List StatRow := [⟨0, 2, 0, 0⟩, ⟨1, 20, 50, 0⟩, ⟨2, 2, 100, 0⟩]

/-- Of these three there are results, with two images counted. -/
example : ∃ st, acquisitionStats 6 70 none none (some hop) = .ok st ∧ st.count = 2 := by
  classical
  obtain ⟨st, hst⟩ := (C204_results 6 70 none none hop).mpr
    ⟨⟨0, 2, 0, 0⟩, List.mem_cons_self, ⟨by simp, by simp⟩, by norm_num⟩
  refine ⟨st, hst, ?_⟩
  rw [(C204_counts 6 70 none none hop st hst).1]
  have hw : ∀ r, WithinTimes none none r := fun r => ⟨by simp, by simp⟩
  simp only [hw, true_and, hop]
  norm_num [List.filter]

/-- C204: not in general: the way between two stays at the bottom is counted, at full length and with a surface. -/
theorem C204_bottom_false : ¬ DistanceAtBottom := by
  classical
  intro h
  obtain ⟨st, hst⟩ := (C204_results 6 70 none none hop).mpr
    ⟨⟨0, 2, 0, 0⟩, List.mem_cons_self, ⟨by simp, by simp⟩, by norm_num⟩
  have h1 := h 6 70 hop st hst
  rw [C204_distance 6 70 none none hop st hst] at h1
  have hw : ∀ r, WithinTimes none none r := fun r => ⟨by simp, by simp⟩
  simp only [hw, true_and, hop] at h1
  norm_num [List.filter, trackLength, lowTrackLength, planeDistance] at h1

/-- C204: the bottom time is printed as hours, minutes below 60 and seconds below 60 that add up to it. -/
theorem C204_time (t : ℝ) : let p := hoursMinutes t
    (p.1 : ℝ) * 3600 + p.2.1 * 60 + p.2.2 = t ∧ 0 ≤ p.2.1 ∧ p.2.1 < 60 ∧ 0 ≤ p.2.2 ∧ p.2.2 < 60 := by
  intro p
  have h1 := Int.floor_le (t / 60)
  have h2 := Int.lt_floor_add_one (t / 60)
  have h3 := Int.mul_ediv_add_emod ⌊t / 60⌋ 60
  have h3' : (60 : ℝ) * ((⌊t / 60⌋ / 60 : ℤ) : ℝ) + ((⌊t / 60⌋ % 60 : ℤ) : ℝ) = (⌊t / 60⌋ : ℝ) := by exact_mod_cast h3
  refine ⟨?_, Int.emod_nonneg _ (by norm_num), Int.emod_lt_of_pos _ (by norm_num), ?_, ?_⟩ <;> simp only [p, hoursMinutes]
  · linarith
  · rw [le_div_iff₀ (by norm_num)] at h1; linarith
  · rw [div_lt_iff₀ (by norm_num)] at h2; linarith

end Oplab.Props
