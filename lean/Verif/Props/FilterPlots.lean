import Verif.Spec.FilterPlots
import Verif.Props.EkfRun
import Mathlib.Tactic.Common
import Mathlib.Tactic.NormNum
import Mathlib.Tactic.Positivity

/-! # C270: the plots of the filters -/

namespace Oplab.Props

open Oplab.Spec Real Ix

private theorem cov_diag {P : KMat} (h : IsCov P) (i : Ix) : 0 ≤ P i i := by
  have := h.2 (Pi.single i 1)
  simpa [Matrix.mulVec_single, dotProduct_single, single_dotProduct] using this

private theorem shows {l : List EState} (hv : ∀ s ∈ l, ∀ i, 0 ≤ s.cov i i) (f : ℝ) (hf : 0 ≤ f) (i : Ix) (val : EState → ℝ) (std : EState → ℝ)
    (h1 : ∀ s, val s = f * s.state i) (h2 : ∀ s, std s = f * sqrt (max 0 (s.cov i i))) :
    ShowsEntry l f i (l.map (·.time)) (l.map val) (l.map std) := by
  refine ⟨by simp, by simp, by simp, fun k s hs => ⟨by simp [hs], by simp [hs, h1], _, by rw [List.getElem?_map, hs]; rfl, ?_, ?_⟩⟩
  · rw [h2]; positivity
  · have := hv s (List.mem_of_getElem? hs) i
    rw [h2, mul_pow, max_eq_right this, sq_sqrt this]

/-- C270: the plots of positions, orientations and velocities show all estimates, angles in degrees, with the roots of their variances. -/
theorem C270_columns (l : List EState) (hv : ∀ s ∈ l, ∀ i, 0 ≤ s.cov i i) :
    (let c := positionColumns l
     ShowsEntry l 1 X c.times c.a c.aStd ∧ ShowsEntry l 1 Y c.times c.b c.bStd ∧ ShowsEntry l 1 Z c.times c.c c.cStd) ∧
    (let c := orientationColumns l
     ShowsEntry l (180 / π) ROLL c.times c.a c.aStd ∧ ShowsEntry l (180 / π) PITCH c.times c.b c.bStd ∧ ShowsEntry l (180 / π) YAW c.times c.c c.cStd) ∧
    (let c := speedColumns l
     ShowsEntry l 1 VX c.times c.a c.aStd ∧ ShowsEntry l 1 VY c.times c.b c.bStd ∧ ShowsEntry l 1 VZ c.times c.c c.cStd) := by
  have hd : (0 : ℝ) ≤ 180 / π := by positivity
  have one : ∀ i, ShowsEntry l 1 i (l.map (·.time)) (l.map (·.state i)) (l.map (plotStd · i)) := fun i =>
    shows hv 1 zero_le_one i _ _ (fun s => (one_mul _).symm) (fun s => (one_mul _).symm)
  have deg : ∀ i, ShowsEntry l (180 / π) i (l.map (·.time)) (l.map (180 / π * ·.state i)) (l.map (plotStdDeg · i)) := fun i =>
    shows hv _ hd i _ _ (fun _ => rfl) (fun _ => rfl)
  exact ⟨⟨one X, one Y, one Z⟩, ⟨deg ROLL, deg PITCH, deg YAW⟩, one VX, one VY, one VZ⟩

/-- C270: the variances of all estimates of a run of the filter are as `C270_columns` needs them. -/
theorem C270_run (c : EkfCfg) (start : ℝ) (s0 : KVec) (P0 Q : KMat) (thr : ℝ) (q : Queues) (hP : IsCov P0) (hQ : IsCov Q) (e : Ekf)
    (he : ekfRun c start s0 P0 Q thr q = .ok e) : ∀ s ∈ e.hist, ∀ i, 0 ≤ s.cov i i :=
  fun s hs i => cov_diag ((C29_run c start s0 P0 Q thr q hP hQ).1 e he s hs) i

/-- Non-vacuity: an estimate with variance 4 is shown with standard deviation 2. -/
example : (positionColumns [⟨7, fun _ => 3, fun _ _ => 4⟩]).aStd = [2] := by
  have : sqrt (4 : ℝ) = 2 := by rw [show (4 : ℝ) = 2 ^ 2 by norm_num]; exact sqrt_sq (by norm_num)
  simp [positionColumns, plotStd, this]

private theorem zip_map (f : ℝ → ℝ → ℝ) : ∀ a b : List ℝ, List.zipWith f a b = (a.zip b).map fun p => f p.1 p.2
  | [], _ => rfl
  | _ :: _, [] => rfl
  | x :: a, y :: b => by simp [zip_map f a b]

/-- C270: the plot of velocities has the velocities, their standard deviations and the bounds under their names. -/
theorem C270_speeds (i : FilterColumns) :
    DrawnAs (speedPlot i) "surge speeds (m/s)" i.times i.a ∧ DrawnAs (speedPlot i) "sway speeds (m/s)" i.times i.b ∧
      DrawnAs (speedPlot i) "vertical speeds (m/s)" i.times i.c ∧
    DrawnAs (speedPlot i) "surge_speeds_std (m/s)" i.times i.aStd ∧ DrawnAs (speedPlot i) "sway_speeds_std (m/s)" i.times i.bStd ∧
      DrawnAs (speedPlot i) "down_speeds_std (m/s)" i.times i.cStd ∧
    DrawnWithBounds (speedPlot i) "surge_speed" i.times i.a i.aStd ∧ DrawnWithBounds (speedPlot i) "sway_speed" i.times i.b i.bStd ∧
      DrawnWithBounds (speedPlot i) "down_speed" i.times i.c i.cStd := by
  have key : ∀ (k : ℕ) (t : FilterTrace), (speedPlot i)[k]? = some t → t.xs = i.times → DrawnAs (speedPlot i) t.name i.times t.ys := by
    intro k t hk hx
    refine ⟨t, List.mem_of_getElem? hk, rfl, hx, rfl, fun t' ht' hn => ?_⟩
    have hnd : ((speedPlot i).map (·.name)).Nodup := by
      show ["surge speeds (m/s)", "surge_speed+sigma", "surge_speed-sigma", "surge_speeds_std (m/s)", "sway speeds (m/s)", "sway_speed+sigma",
        "sway_speed-sigma", "sway_speeds_std (m/s)", "vertical speeds (m/s)", "down_speed+sigma", "down_speed-sigma", "down_speeds_std (m/s)"].Nodup
      decide +kernel
    exact List.inj_on_of_nodup_map hnd ht' (List.mem_of_getElem? hk) hn
  have e1 : "surge_speed" ++ "+sigma" = "surge_speed+sigma" := by decide +kernel
  have e2 : "surge_speed" ++ "-sigma" = "surge_speed-sigma" := by decide +kernel
  have e3 : "sway_speed" ++ "+sigma" = "sway_speed+sigma" := by decide +kernel
  have e4 : "sway_speed" ++ "-sigma" = "sway_speed-sigma" := by decide +kernel
  have e5 : "down_speed" ++ "+sigma" = "down_speed+sigma" := by decide +kernel
  have e6 : "down_speed" ++ "-sigma" = "down_speed-sigma" := by decide +kernel
  unfold DrawnWithBounds
  rw [e1, e2, e3, e4, e5, e6]
  simp only [← zip_map (fun x y => x + y), ← zip_map (fun x y => x - y)]
  exact ⟨key 0 _ rfl rfl, key 4 _ rfl rfl, key 8 _ rfl rfl, key 3 _ rfl rfl, key 7 _ rfl rfl, key 11 _ rfl rfl,
    ⟨key 1 _ rfl rfl, key 2 _ rfl rfl⟩, ⟨key 5 _ rfl rfl, key 6 _ rfl rfl⟩, key 9 _ rfl rfl, key 10 _ rfl rfl⟩

private theorem points_map (k : String) : ∀ (keys : List String) (r : String → Option (List ℝ)), keys.Nodup →
    pointsOf (rejectedPlot keys r) k = if k ∈ keys then (r k).getD [] else []
  | [], _, _ => rfl
  | a :: keys, r, h => by
    have ih := points_map k keys r (List.nodup_cons.mp h).2
    have ha := (List.nodup_cons.mp h).1
    unfold pointsOf rejectedPlot at ih ⊢
    rw [List.map_cons, List.flatMap_cons, List.filterMap_append, ih]
    have e : (((r a).getD []).map fun t => (t, a)).filterMap (fun p : ℝ × String => if p.2 = k then some p.1 else none) =
        if a = k then (r a).getD [] else [] := by
      rw [List.filterMap_map]
      split
      · rename_i hk
        simp [hk]
      · rename_i hk
        simp [hk]
    dsimp only
    rw [e]
    by_cases hk : a = k
    · subst hk
      simp [ha]
    · have : k ∈ a :: keys ↔ k ∈ keys := by simp [Ne.symm hk]
      simp [hk, this]

private theorem points_eq {keys : List String} {r : String → Option (List ℝ)} (h : KeysOf keys r) (k : String) :
    pointsOf (rejectedPlot keys r) k = (r k).getD [] := by
  rw [points_map k keys r h.1]
  split
  · rfl
  · rename_i hk
    rw [h.2] at hk
    cases hr : r k with
    | none => rfl
    | some x => rw [hr] at hk; simp at hk

private def kindOf : Ev → String
  | .predict _ => ""
  | .orient _ => "orientation"
  | .usbl _ => "USBL"
  | .depth _ => "depth"
  | .dvl _ => "DVL"

private theorem correct_rejected {e e' : Ekf} {m : KMeas} (h : e.correct m = .ok e') (k : String) :
    (e'.rejected k).getD [] = (e.rejected k).getD [] ∨ (m.type = k ∧ (e'.rejected k).getD [] = (e.rejected k).getD [] ++ [m.time]) := by
  unfold Ekf.correct at h
  split at h
  · cases h
  · injection h with h
    subst h
    dsimp only
    split
    · by_cases hk : k = m.type
      · right
        refine ⟨hk.symm, ?_⟩
        simp [Ekf.reject, hk]
      · left
        simp [Ekf.reject, hk]
    · left; rfl

private theorem replay_rejected (c : EkfCfg) (k : String) (hk : k ≠ "") : ∀ (evs : List Ev) (e e' : Ekf), replay c e evs = .ok e' →
    ∃ new, (e'.rejected k).getD [] = (e.rejected k).getD [] ++ new ∧ new.Sublist ((evs.filter fun v => decide (kindOf v = k)).map Ev.time)
  | [], e, e', h => by
    unfold replay at h
    cases h
    exact ⟨[], by simp, by simp⟩
  | v :: evs, e, e', h => by
    unfold replay at h
    rw [List.foldlM_cons] at h
    cases h1 : Ev.apply c e v with
    | error x => rw [h1] at h; cases h
    | ok e1 =>
      rw [h1] at h
      obtain ⟨new, hn, hs⟩ := replay_rejected c k hk evs e1 e' h
      have step : (e1.rejected k).getD [] = (e.rejected k).getD [] ∨
          (kindOf v = k ∧ (e1.rejected k).getD [] = (e.rejected k).getD [] ++ [v.time]) := by
        cases v with
        | predict t =>
          left
          simp only [Ev.apply, Ekf.predict] at h1
          split at h1
          · cases h1
          · injection h1 with h1; subst h1; rfl
        | orient o => exact correct_rejected (m := fromOrientation c.std o) h1 k
        | usbl o => exact correct_rejected (m := fromUsbl c.std o e.rpyDeg c.usblToDvl) h1 k
        | depth o => exact correct_rejected (m := fromDepth c.std o e.rpyDeg c.depthToDvl) h1 k
        | dvl o => exact correct_rejected (m := fromDvl c.std o) h1 k
      rcases step with hst | ⟨hkv, hst⟩
      · refine ⟨new, by rw [hn, hst], ?_⟩
        rw [List.filter_cons]
        split
        · exact hs.trans (by simp)
        · exact hs
      · refine ⟨v.time :: new, by rw [hn, hst]; simp, ?_⟩
        rw [List.filter_cons, if_pos (by simp [hkv])]
        exact hs.cons_cons _

private theorem filter_times (f : Ev → Option α) (time : α → ℝ) (k : String) (h : ∀ v, (f v).map time = if kindOf v = k then some v.time else none) :
    ∀ evs : List Ev, (evs.filter fun v => decide (kindOf v = k)).map Ev.time = (evs.filterMap f).map time
  | [] => rfl
  | v :: evs => by
    have hv := h v
    rw [List.filter_cons, List.filterMap_cons]
    by_cases hk : kindOf v = k
    · rw [if_pos hk] at hv
      cases hf : f v with
      | none => rw [hf] at hv; cases hv
      | some x =>
        rw [hf] at hv
        simp only [Option.map_some, Option.some.injEq] at hv
        simp [hk, filter_times f time k h evs, hv]
    · rw [if_neg hk] at hv
      cases hf : f v with
      | none => simp [hk, filter_times f time k h evs]
      | some x => rw [hf] at hv; cases hv

private theorem used_sub {α : Type} {time : α → ℝ} {endT start : ℝ} {used all : List α}
    (h : UsedUpToEnd time endT used (all.filter fun o => decide (start < time o))) : (used.map time).Sublist (all.map time) := by
  obtain ⟨rest, hr, -⟩ := h
  have h1 : used.Sublist (all.filter fun o => decide (start < time o)) := by
    rw [hr]; exact List.sublist_append_left used rest
  exact (h1.trans List.filter_sublist).map time

/-- C270: the plot of rejected measurements has for each sensor as many points as the report has dropped measurements, and they are times of
measurements of the sensor, each at most as often as it was measured and in order. -/
theorem C270_rejected (c : EkfCfg) (start : ℝ) (s0 : KVec) (P0 Q : KMat) (thr : ℝ) (q : Queues) (h0 : 0 ≤ start) (hq : InOrder q) (e : Ekf)
    (he : ekfRun c start s0 P0 Q thr q = .ok e) (keys : List String) (hk : KeysOf keys e.rejected) :
    (∀ k, (pointsOf (rejectedPlot keys e.rejected) k).length = ((e.reports k).getD {}).dropped) ∧
    (pointsOf (rejectedPlot keys e.rejected) "orientation").Sublist (q.orient.map (·.time)) ∧
    (pointsOf (rejectedPlot keys e.rejected) "USBL").Sublist (q.usbl.map (·.time)) ∧
    (pointsOf (rejectedPlot keys e.rejected) "depth").Sublist (q.depth.map (·.time)) ∧
    (pointsOf (rejectedPlot keys e.rejected) "DVL").Sublist (q.dvl.map (·.time)) := by
  refine ⟨fun k => ?_, ?_⟩
  · rw [points_eq hk, ← ((C34_run c start s0 P0 Q thr q h0 hq e he).1 k).2]
  obtain ⟨evs, h1, _, _, _, _, _, u1, u2, u3, u4⟩ := C33_schedule c start s0 P0 Q thr q h0 hq
  rw [h1] at he
  have key : ∀ k : String, k ≠ "" → ((e.rejected k).getD []).Sublist ((evs.filter fun v => decide (kindOf v = k)).map Ev.time) := by
    intro k hk
    obtain ⟨new, hn, hs⟩ := replay_rejected c k hk evs _ e he
    rw [hn]
    exact hs
  have n1 : "orientation" ≠ "USBL" := by decide
  have n2 : "orientation" ≠ "depth" := by decide
  have n3 : "orientation" ≠ "DVL" := by decide
  have n4 : "USBL" ≠ "depth" := by decide
  have n5 : "USBL" ≠ "DVL" := by decide
  have n6 : "depth" ≠ "DVL" := by decide
  have m1 : "" ≠ "orientation" := by decide
  have m2 : "" ≠ "USBL" := by decide
  have m3 : "" ≠ "depth" := by decide
  have m4 : "" ≠ "DVL" := by decide
  refine ⟨?_, ?_, ?_, ?_⟩ <;> rw [points_eq hk]
  · refine (key _ m1.symm).trans ?_
    rw [filter_times Ev.orient? KOrient.time "orientation"]
    · exact used_sub u1
    · intro v; cases v <;> simp [Ev.orient?, kindOf, Ev.time, n1.symm, n2.symm, n3.symm, m1]
  · refine (key _ m2.symm).trans ?_
    rw [filter_times Ev.usbl? KUsbl.time "USBL"]
    · exact used_sub u2
    · intro v; cases v <;> simp [Ev.usbl?, kindOf, Ev.time, n1, n4.symm, n5.symm, m2]
  · refine (key _ m3.symm).trans ?_
    rw [filter_times Ev.depth? KDepth.time "depth"]
    · exact used_sub u3
    · intro v; cases v <;> simp [Ev.depth?, kindOf, Ev.time, n2, n4, n6.symm, m3]
  · refine (key _ m4.symm).trans ?_
    rw [filter_times Ev.dvl? KDvl.time "DVL"]
    · exact used_sub u4
    · intro v; cases v <;> simp [Ev.dvl?, kindOf, Ev.time, n3, n5, n6, m4]

/-- Non-vacuity: a plot of two sensors. -/
example : pointsOf (rejectedPlot ["USBL", "DVL"] fun k => if k = "USBL" then some [3, 5] else if k = "DVL" then some [4] else none) "USBL" = [3, 5] := by
  rw [points_eq]
  · simp
  · refine ⟨by decide, fun k => ?_⟩
    by_cases h1 : k = "USBL"
    · simp [h1]
    · by_cases h2 : k = "DVL" <;> simp [h1, h2]

/-- C270 is false for the particle filter: its uncertainties are never computed and the plot shows none. -/
theorem C270_spread_false : ¬ SpreadShown := by
  intro h
  have := h [0] ⟨"northings_std (m)", [0], [], 1, 1⟩ List.mem_cons_self
  simp at this

/-- C270: each velocity has a column of the grid, with the values and their bounds above the standard deviations. -/
theorem C270_fields (i : FilterColumns) :
    (∀ n ∈ ["surge speeds (m/s)", "surge_speed+sigma", "surge_speed-sigma"], DrawnIn (speedPlot i) n 1 1) ∧ DrawnIn (speedPlot i) "surge_speeds_std (m/s)" 2 1 ∧
    (∀ n ∈ ["sway speeds (m/s)", "sway_speed+sigma", "sway_speed-sigma"], DrawnIn (speedPlot i) n 1 2) ∧ DrawnIn (speedPlot i) "sway_speeds_std (m/s)" 2 2 ∧
    (∀ n ∈ ["vertical speeds (m/s)", "down_speed+sigma", "down_speed-sigma"], DrawnIn (speedPlot i) n 1 3) ∧ DrawnIn (speedPlot i) "down_speeds_std (m/s)" 2 3 := by
  have key : ∀ (k : ℕ) (t : FilterTrace), (speedPlot i)[k]? = some t → DrawnIn (speedPlot i) t.name t.row t.col := by
    intro k t hk
    refine ⟨t, List.mem_of_getElem? hk, rfl, rfl, rfl, fun t' ht' hn => ?_⟩
    have hnd : ((speedPlot i).map (·.name)).Nodup := by
      show ["surge speeds (m/s)", "surge_speed+sigma", "surge_speed-sigma", "surge_speeds_std (m/s)", "sway speeds (m/s)", "sway_speed+sigma",
        "sway_speed-sigma", "sway_speeds_std (m/s)", "vertical speeds (m/s)", "down_speed+sigma", "down_speed-sigma", "down_speeds_std (m/s)"].Nodup
      decide +kernel
    exact List.inj_on_of_nodup_map hnd ht' (List.mem_of_getElem? hk) hn
  simp only [List.forall_mem_cons, List.not_mem_nil, false_imp_iff, implies_true, and_true]
  exact ⟨⟨key 0 _ rfl, key 1 _ rfl, key 2 _ rfl⟩, key 3 _ rfl, ⟨key 4 _ rfl, key 5 _ rfl, key 6 _ rfl⟩, key 7 _ rfl, ⟨key 8 _ rfl, key 9 _ rfl, key 10 _ rfl⟩,
    key 11 _ rfl⟩

/-- C270: the three lines of the uncertainty of the particle filter are in one field, against the times. -/
theorem C270_one_field (times : List ℝ) : ∀ t ∈ pfUncertaintyPlot times, t.xs = times ∧ t.row = 1 ∧ t.col = 1 := by
  simp [pfUncertaintyPlot]

end Oplab.Props
