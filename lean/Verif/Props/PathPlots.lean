import Verif.Spec.PathPlots
import Mathlib.Tactic.Linarith
import Mathlib.Tactic.NormNum

/-! C265: the plots of paths. -/

namespace Oplab.Props
open Oplab Oplab.Spec

private theorem frameIndex_eq (t : ℚ) (l : List ℚ) : ∀ i : ℕ,
    frameIndex t i ((i : Int) - 1) l = (i : Int) - 1 + (l.takeWhile fun x => decide (x ≤ t)).length := by
  induction l with
  | nil => intro i; simp [frameIndex]
  | cons x l ih =>
    intro i
    unfold frameIndex
    by_cases h : x ≤ t
    · have e := ih (i + 1)
      rw [if_pos h]
      have : ((i + 1 : ℕ) : Int) - 1 = i := by push_cast; ring
      rw [this] at e
      rw [e]
      simp only [List.takeWhile_cons, h, decide_true, if_true, List.length_cons]
      push_cast
      ring
    · rw [if_neg h]
      simp [List.takeWhile_cons, h]

/-- The positions up to a time, looking from the front. -/
private theorem frame_eq (name : String) (l : List PathPoint) (t : ℚ) :
    makeFrame name l t = ⟨name, trackOf (l.takeWhile fun p => decide (p.time ≤ t))⟩ := by
  unfold makeFrame
  have e := frameIndex_eq t (l.map (·.time)) 0
  simp only [Nat.cast_zero, zero_sub] at e
  rw [e]
  have e2 : ((-1 : Int) + ((l.map (·.time)).takeWhile fun x => decide (x ≤ t)).length + 1).toNat =
      (l.takeWhile fun p => decide (p.time ≤ t)).length := by
    rw [List.takeWhile_map, List.length_map]
    simp only [Function.comp_def]
    omega
  rw [e2]
  unfold trackOf
  rw [← List.map_take]
  congr 2
  exact (List.prefix_iff_eq_take.mp (List.takeWhile_prefix _)).symm

private theorem track_draws (l : List PathPoint) : Draws (trackOf l) l := by
  refine ⟨by simp [trackOf], fun k p hk => ?_⟩
  simp [trackOf, hk]

private theorem takeWhile_filter {l : List PathPoint} (h : PathInOrder l) (t : ℚ) :
    (l.takeWhile fun p => decide (p.time ≤ t)) = l.filter fun p => decide (p.time ≤ t) := by
  induction l with
  | nil => rfl
  | cons p l ih =>
    unfold PathInOrder at h
    rw [List.pairwise_cons] at h
    by_cases hp : p.time ≤ t
    · simp [List.takeWhile_cons, List.filter_cons, hp, ih h.2]
    · rw [List.takeWhile_cons, if_neg (by simpa using hp), List.filter_cons, if_neg (by simpa using hp)]
      symm
      rw [List.filter_eq_nil_iff]
      intro q hq
      have := h.1 q hq
      simp only [decide_eq_true_eq]
      linarith

/-- **C265**: a frame of the slider shows the positions up to its time. -/
theorem C265_frame (name : String) (l : List PathPoint) (t : ℚ) (h : PathInOrder l) :
    (makeFrame name l t).name = name ∧ Draws (makeFrame name l t).points (l.filter fun p => decide (p.time ≤ t)) := by
  rw [frame_eq, takeWhile_filter h]
  exact ⟨rfl, track_draws _⟩

/-- **C265**: while the slider moves on, paths grow, even if times go back. -/
theorem C265_grow (name : String) (l : List PathPoint) (t t' : ℚ) (h : t ≤ t') :
    (makeFrame name l t).points <+: (makeFrame name l t').points := by
  rw [frame_eq, frame_eq]
  unfold trackOf
  refine List.IsPrefix.map _ ?_
  induction l with
  | nil => simp
  | cons p l ih =>
    by_cases hp : p.time ≤ t
    · have hp' : p.time ≤ t' := le_trans hp h
      simpa [List.takeWhile_cons, hp, hp'] using ih
    · simp [List.takeWhile_cons, hp]

private theorem mem_ifMany {name : String} {l : List PathPoint} {p : String × List PathPoint} :
    p ∈ ifMany name l ↔ p = (name, l) ∧ 1 < l.length := by
  unfold ifMany
  split <;> simp_all

private theorem shown_eq (i : PathInput) : sliderLists i = pathsShown i := by
  unfold sliderLists pathsShown ifMany
  by_cases h1 : 1 < i.camera1.length <;> by_cases h2 : 1 < i.camera1Ekf.length <;> by_cases h3 : 1 < i.usbl.length <;>
    simp [List.filter_cons, h1, h2, h3]

/-- **C265**: the frames of the slider show the two camera paths and the fixes up to their time, and the camera path of the particle filter. -/
theorem C265_slider (i : PathInput) (fs : List (Int × List PathTrace)) (h : (plotPaths i).slider = some fs) (t : Int) (f : List PathTrace)
    (hf : (t, f) ∈ fs) (name : String) (l : List PathPoint)
    (hl : (name, l) ∈ [("dr_camera1", i.camera1), ("ekf_camera1", i.camera1Ekf), ("usbl", i.usbl), ("pf_camera1", i.camera1Pf)])
    (h1 : 1 < l.length) (ho : PathInOrder l) :
    ∃ tr ∈ f, tr.name = name ∧ Draws tr.points (l.filter fun p => decide (p.time ≤ t)) := by
  unfold plotPaths at h
  split at h
  · cases h
  split at h
  · cases h
  · simp only [Option.some.injEq] at h
    subst h
    obtain ⟨k, _, e⟩ := List.mem_map.mp hf
    cases e
    refine ⟨makeFrame name l t, ?_, C265_frame name l t ho⟩
    unfold pathFrame
    rw [List.mem_append]
    simp only [List.mem_cons, Prod.mk.injEq, List.not_mem_nil, or_false] at hl
    have key : (name, l) ∈ sliderLists i → makeFrame name l (t : ℚ) ∈ (sliderLists i).map (fun l => makeFrame l.1 l.2 t) :=
      fun h => List.mem_map.mpr ⟨_, h, rfl⟩
    rcases hl with ⟨rfl, rfl⟩ | ⟨rfl, rfl⟩ | ⟨rfl, rfl⟩ | ⟨rfl, rfl⟩
    · exact .inl (key (by simp [sliderLists, mem_ifMany, h1]))
    · exact .inl (key (by simp [sliderLists, mem_ifMany, h1]))
    · exact .inl (key (by simp [sliderLists, mem_ifMany, h1]))
    · exact .inr (by rw [if_pos h1]; simp)

private theorem span_spec (l : List PathPoint) (hl : l ≠ []) :
    ∃ a b, timeSpan l = some (a, b) ∧ (∀ p ∈ l, a ≤ p.time ∧ p.time ≤ b) ∧ (∃ p ∈ l, p.time = a) ∧ ∃ p ∈ l, p.time = b := by
  induction l with
  | nil => exact absurd rfl hl
  | cons p l ih =>
    by_cases hn : l = []
    · subst hn
      exact ⟨p.time, p.time, rfl, by simp, ⟨p, by simp⟩, ⟨p, by simp⟩⟩
    · obtain ⟨a, b, e, h1, ⟨pa, ha, hae⟩, ⟨pb, hb, hbe⟩⟩ := ih hn
      refine ⟨min p.time a, max p.time b, by unfold timeSpan; rw [e], ?_, ?_, ?_⟩
      · intro q hq
        rcases List.mem_cons.mp hq with rfl | hq
        · exact ⟨min_le_left _ _, le_max_left _ _⟩
        · exact ⟨(min_le_right _ _).trans (h1 q hq).1, (h1 q hq).2.trans (le_max_right _ _)⟩
      · rcases min_choice p.time a with e | e
        · exact ⟨p, by simp, e.symm⟩
        · exact ⟨pa, List.mem_cons_of_mem _ ha, by rw [e, hae]⟩
      · rcases max_choice p.time b with e | e
        · exact ⟨p, by simp, e.symm⟩
        · exact ⟨pb, List.mem_cons_of_mem _ hb, by rw [e, hbe]⟩

/-- **C265** (partial: the paths of the slider last at least 40 seconds): the slider has 40 to 80 steps of equal length, the first in the second of
the first position; the one after the last would be in or after the second of the last position. -/
theorem C265_steps_partial (i : PathInput) (p q : PathPoint) (hp : p ∈ pointsShown i) (hq : q ∈ pointsShown i)
    (hmin : ∀ x ∈ pointsShown i, p.time ≤ x.time ∧ x.time ≤ q.time) (h40 : 40 ≤ q.time - p.time) :
    ∃ ts gap, sliderTimes i = .ok ts ∧ (gap : Int) = ⌊(q.time - p.time) / 40⌋ ∧ 1 ≤ gap ∧ 40 ≤ ts.length ∧ ts.length ≤ 80 ∧
      (∀ (k : ℕ) (t : ℤ), ts[k]? = some t → t = ⌊p.time⌋ + k * gap ∧ t < ⌊q.time⌋) ∧ ⌊q.time⌋ ≤ ⌊p.time⌋ + ts.length * gap := by
  obtain ⟨a, b, hs, h1, ⟨pa, ha, hae⟩, ⟨pb, hb, hbe⟩⟩ := span_spec _ (List.ne_nil_of_mem hp)
  have ea : a = p.time := le_antisymm (h1 p hp).1 (by rw [← hae]; exact (hmin pa ha).1)
  have eb : b = q.time := le_antisymm (by rw [← hbe]; exact (hmin pb hb).2) (h1 q hq).2
  subst ea eb
  clear hmin h1 hae hbe
  revert hs h40
  generalize p.time = x
  generalize q.time = y
  intro h40 hs
  have g1 : 1 ≤ ⌊(y - x) / 40⌋ := by
    rw [Int.le_floor]; push_cast; linarith
  have g2 := Int.floor_le ((y - x) / 40)
  have g3 := Int.lt_floor_add_one ((y - x) / 40)
  have x1 := Int.floor_le x
  have x2 := Int.lt_floor_add_one x
  have y1 := Int.floor_le y
  have y2 := Int.lt_floor_add_one y
  generalize hG : ⌊(y - x) / 40⌋ = g at *
  generalize hX : ⌊x⌋ = X at *
  generalize hY : ⌊y⌋ = Y at *
  have low : 40 * g ≤ Y - X := by
    have : ((40 * g - 1 : Int) : ℚ) < ((Y - X : Int) : ℚ) := by push_cast; linarith
    have := Int.cast_lt.mp this
    omega
  have high : Y - X ≤ 40 * g + 40 := by
    have : ((Y - X : Int) : ℚ) < ((40 * g + 41 : Int) : ℚ) := by push_cast; linarith
    have := Int.cast_lt.mp this
    omega
  have d1 := Int.mul_ediv_add_emod (Y - X + g - 1) g
  have d2 := Int.emod_nonneg (Y - X + g - 1) (show g ≠ 0 by omega)
  have d3 := Int.emod_lt_of_pos (Y - X + g - 1) (show 0 < g by omega)
  generalize hn : (Y - X + g - 1) / g = n at *
  generalize (Y - X + g - 1) % g = r at *
  have n40 : 40 ≤ n := by
    by_contra hc
    have : g * n ≤ g * 39 := mul_le_mul_of_nonneg_left (by omega) (by omega)
    omega
  have n80 : n ≤ 80 := by
    by_contra hc
    have : g * 81 ≤ g * n := mul_le_mul_of_nonneg_left (by omega) (by omega)
    omega
  refine ⟨(List.range n.toNat).map fun (k : ℕ) => X + k * g, g, ?_, rfl, g1, ?_, ?_, ?_, ?_⟩
  · unfold sliderTimes intRange
    rw [shown_eq]
    have hs : timeSpan ((pathsShown i).flatMap (·.2)) = _ := hs
    rw [hs]
    simp only [hG, hX, hY, hn]
    rw [if_neg (by omega)]
  · simp; omega
  · simp; omega
  · intro k t hk
    simp only [List.getElem?_map, Option.map_eq_some_iff] at hk
    obtain ⟨k', hk', rfl⟩ := hk
    obtain ⟨hlt, rfl⟩ := List.getElem?_eq_some_iff.mp hk'
    simp only [List.length_range] at hlt
    simp only [List.getElem_range]
    refine ⟨trivial, ?_⟩
    have : (k : Int) * g ≤ (n - 1) * g := mul_le_mul_of_nonneg_right (by omega) (by omega)
    have e : (n - 1) * g = g * n - g := by ring
    omega
  · simp only [List.length_map, List.length_range]
    have : ((n.toNat : ℕ) : Int) = n := by omega
    rw [this, mul_comm n g]
    omega

/-- **C265**: no frame shows a last position. -/
theorem C265_last (i : PathInput) (ts : List Int) (h : sliderTimes i = .ok ts) (q : PathPoint) (hq : q ∈ pointsShown i)
    (hmax : ∀ x ∈ pointsShown i, x.time ≤ q.time) (t : Int) (ht : t ∈ ts) : (t : ℚ) < q.time := by
  obtain ⟨a, b, hs, h1, ⟨pa, ha, hae⟩, ⟨pb, hb, hbe⟩⟩ := span_spec _ (List.ne_nil_of_mem hq)
  have eb : b = q.time := le_antisymm (by rw [← hbe]; exact hmax pb hb) (h1 q hq).2
  subst eb
  have hab : a ≤ q.time := (h1 q hq).1
  unfold sliderTimes intRange at h
  rw [shown_eq] at h
  have hs : timeSpan ((pathsShown i).flatMap (·.2)) = _ := hs
  rw [hs] at h
  simp only at h
  split at h
  · cases h
  · rename_i hg
    cases h
    have g0 : 0 ≤ ⌊(q.time - a) / 40⌋ := Int.floor_nonneg.mpr (by linarith)
    obtain ⟨k, hk, rfl⟩ := List.mem_map.mp ht
    rw [List.mem_range] at hk
    have y1 := Int.floor_le q.time
    generalize ⌊(q.time - a) / 40⌋ = g at *
    generalize ⌊q.time⌋ = Y at *
    generalize ⌊a⌋ = X at *
    have d1 := Int.mul_ediv_add_emod (Y - X + g - 1) g
    have d2 := Int.emod_nonneg (Y - X + g - 1) (show g ≠ 0 by omega)
    generalize (Y - X + g - 1) / g = n at *
    generalize (Y - X + g - 1) % g = r at *
    have : (k : Int) * g ≤ (n - 1) * g := mul_le_mul_of_nonneg_right (by omega) (by omega)
    have e : (n - 1) * g = g * n - g := by ring
    have : X + (k : Int) * g < Y := by omega
    have : ((X + (k : Int) * g : Int) : ℚ) < (Y : ℚ) := Int.cast_lt.mpr this
    linarith

/-- **C265**: if the particle filter ran and an interval is given, as in the configuration that comes with the program, no path is drawn at all. -/
theorem C265_particles (i : PathInput) (q : ℚ) (hi : i.interval = some q) (hp : 1 < i.pfCentre.length) :
    (plotPaths i).path = none ∧ (plotPaths i).slider = none := by
  have : ∃ e, pathFigure i = .error e := by
    unfold pathFigure pfTraces particleTraces
    rw [if_pos hp, hi]
    cases h : i.particles with
    | nil => exact ⟨_, rfl⟩
    | cons a l => cases a <;> exact ⟨_, rfl⟩
  obtain ⟨e, he⟩ := this
  unfold plotPaths
  rw [he]
  exact ⟨rfl, rfl⟩

/-- **C265** (partial: paths other than `ekf_dvl`): paths are drawn under their own names. -/
theorem C265_names_partial (i : PathInput) (f : List PathTrace) (h : (plotPaths i).path = some f) (t : PathTrace) (ht : t ∈ f)
    (hn : t.name ≠ "ekf_dvl") :
    (∃ k : ℕ, t.name = "PF_Resampling" ++ toString k) ∨ ∃ l, (t.name, l) ∈ pathNamed i ∧ Draws t.points l := by
  have hp : pathFigure i = .ok f := by
    unfold plotPaths at h
    split at h
    · cases h
    · rename_i g hg
      rw [hg]
      split at h <;> (cases h; rfl)
  unfold pathFigure at hp
  cases hpf : pfTraces i with
  | error e => rw [hpf] at hp; cases hp
  | ok pf =>
    rw [hpf] at hp
    cases hp
    rcases List.mem_append.mp ht with hm | hm
    · obtain ⟨l, hl, rfl⟩ := List.mem_map.mp hm
      simp only [staticLists, List.mem_append, mem_ifMany] at hl
      right
      refine ⟨l.2, ?_, track_draws _⟩
      rcases hl with (((((⟨rfl, _⟩ | ⟨rfl, _⟩) | ⟨rfl, _⟩) | ⟨rfl, _⟩) | ⟨rfl, _⟩) | ⟨rfl, _⟩) | ⟨rfl, _⟩
      all_goals first | exact absurd rfl hn | simp [pathNamed]
    · unfold pfTraces at hpf
      split at hpf
      · rename_i hlen
        cases hi : i.interval with
        | some q =>
          rw [(C265_particles i q hi hlen).1] at h
          cases h
        | none =>
          unfold particleTraces at hpf
          rw [hi] at hpf
          simp only at hpf
          cases hpf
          rcases List.mem_append.mp hm with hm | hm
          · right
            simp only [List.mem_cons, List.not_mem_nil, or_false] at hm
            rcases hm with rfl | rfl | rfl
            · exact ⟨i.camera1Pf, by simp [pathNamed], track_draws _⟩
            · exact ⟨i.pfCentre, by simp [pathNamed], track_draws _⟩
            · exact ⟨i.pfDvl, by simp [pathNamed], track_draws _⟩
          · left
            obtain ⟨k, _, rfl⟩ := List.mem_map.mp hm
            exact ⟨k + 1, rfl⟩
      · cases hpf
        cases hm

private def pt (t : ℚ) : PathPoint := ⟨t, t, 0⟩

private def quiet : PathInput := ⟨[], [], [], [], [], [], [], [], none, [], [], []⟩

/-- A case for frames: three positions in order, of which two are up to the time. -/
example : PathInOrder [pt 0, pt 5, pt 9] ∧ (makeFrame "usbl" [pt 0, pt 5, pt 9] 6).points = [(0, 0), (5, 0)] := by
  refine ⟨?_, by decide +kernel⟩
  unfold PathInOrder
  decide +kernel

/-- A case for the paths without a particle filter. -/
example : ((plotPaths { quiet with camera1 := [pt 0, pt 1], interval := some 600 }).path.map fun f => f.map (·.name)) = some ["dr_camera1"] := by
  obtain ⟨f, hf, _⟩ : ∃ f, (plotPaths { quiet with camera1 := [pt 0, pt 1], interval := some 600 }).path = some f ∧ True := by
    unfold plotPaths
    have : pathFigure { quiet with camera1 := [pt 0, pt 1], interval := some 600 } = .ok [⟨"dr_camera1", trackOf [pt 0, pt 1]⟩] := rfl
    rw [this]
    simp only
    split <;> exact ⟨_, rfl, trivial⟩
  have e : pathFigure { quiet with camera1 := [pt 0, pt 1], interval := some 600 } = .ok [⟨"dr_camera1", trackOf [pt 0, pt 1]⟩] := rfl
  unfold plotPaths at hf ⊢
  rw [e] at hf ⊢
  simp only at hf ⊢
  split <;> rfl

/-- **C265**: the path of the centre of the vehicle by the filter is called `ekf_dvl`. -/
theorem C265_names_false : ¬ NamesRight := by
  intro h
  have := h { quiet with ekfCentre := [pt 0, pt 1] } [⟨"ekf_dvl", [(0, 0), (1, 0)]⟩] rfl ⟨"ekf_dvl", [(0, 0), (1, 0)]⟩ (by simp)
  rcases this with ⟨k, hk⟩ | ⟨l, hl, _⟩
  · have := congrArg String.toList hk
    rw [String.toList_append] at this
    have h0 := congrArg List.head? this
    have e1 : "ekf_dvl".toList.head? = some 'e' := by decide +kernel
    have e2 : ("PF_Resampling".toList ++ (toString k).toList).head? = some 'P' := by
      have : "PF_Resampling".toList = 'P' :: "F_Resampling".toList := by decide +kernel
      rw [this]; rfl
    simp only [e1, e2] at h0
    exact absurd h0 (by decide)
  · simp [pathNamed] at hl

/-- **C265**: paths of less than 40 seconds have no slider. -/
theorem C265_short_false : ¬ PathsDrawn := by
  intro h
  have h2 := (h { quiet with camera1 := [pt 0, pt 39] } (by decide)).2
  have e : sliderTimes { quiet with camera1 := [pt 0, pt 39] } = .error .valueError := by
    have hs : timeSpan ((sliderLists { quiet with camera1 := [pt 0, pt 39] }).flatMap (·.2)) = some (0, 39) := by decide +kernel
    have h0 : ⌊((39 : ℚ) - 0) / 40⌋ = 0 := by rw [Int.floor_eq_iff]; norm_num
    unfold sliderTimes
    rw [hs]
    simp only [h0, intRange, if_true]
  unfold plotPaths at h2
  split at h2
  · simp at h2
  · rw [e] at h2
    simp at h2

/-- **C265**: so auv_path.html is not always written. -/
theorem C265_particles_false : ¬ PathDrawn := by
  intro h
  have := h { quiet with camera1 := [pt 0, pt 1], pfCentre := [pt 0, pt 1], interval := some 600, particles := [[(0, 0)]] } (by decide)
  rw [(C265_particles _ 600 rfl (by decide)).1] at this
  simp at this

/-- **C265** (partial: no particle filter, or no interval): auv_path.html is written, with all paths of more than one position. -/
theorem C265_path_partial (i : PathInput) (hi : i.interval = none ∨ i.pfCentre.length ≤ 1) :
    ∃ f, (plotPaths i).path = some f ∧
      (∀ l ∈ [("dr_camera1", i.camera1), ("ekf_camera1", i.camera1Ekf), ("dr_centre", i.drCentre), ("dr_dvl", i.drDvl),
        ("usbl_without_distance_filter", i.usblAll), ("usbl", i.usbl)], 1 < l.2.length → ∃ t ∈ f, t.name = l.1 ∧ Draws t.points l.2) ∧
      (1 < i.pfCentre.length → ∀ l ∈ [("pf_camera1", i.camera1Pf), ("pf_centre", i.pfCentre), ("pf_dvl", i.pfDvl)],
        ∃ t ∈ f, t.name = l.1 ∧ Draws t.points l.2) := by
  have hpf : ∃ pf, pfTraces i = .ok pf ∧ (1 < i.pfCentre.length → ∀ l ∈ [("pf_camera1", i.camera1Pf), ("pf_centre", i.pfCentre),
      ("pf_dvl", i.pfDvl)], ⟨l.1, trackOf l.2⟩ ∈ pf) := by
    unfold pfTraces
    by_cases h1 : 1 < i.pfCentre.length
    · rcases hi with hi | hi
      · rw [if_pos h1]
        unfold particleTraces
        rw [hi]
        refine ⟨_, rfl, fun _ l hl => ?_⟩
        rw [List.mem_append]
        left
        simp only [List.mem_cons, List.not_mem_nil, or_false] at hl
        rcases hl with rfl | rfl | rfl <;> simp
      · omega
    · exact ⟨[], by rw [if_neg h1], fun h => absurd h h1⟩
  obtain ⟨pf, hpf, hpm⟩ := hpf
  have hfig : pathFigure i = .ok ((staticLists i).map (fun l => ⟨l.1, trackOf l.2⟩) ++ pf) := by
    unfold pathFigure; rw [hpf]; rfl
  have hp : (plotPaths i).path = some ((staticLists i).map (fun l => (⟨l.1, trackOf l.2⟩ : PathTrace)) ++ pf) := by
    unfold plotPaths
    rw [hfig]
    simp only
    split <;> rfl
  refine ⟨_, hp, ?_, ?_⟩
  · intro l hl h1
    refine ⟨⟨l.1, trackOf l.2⟩, ?_, rfl, track_draws _⟩
    rw [List.mem_append]
    left
    refine List.mem_map.mpr ⟨l, ?_, rfl⟩
    simp only [staticLists, List.mem_append, mem_ifMany]
    simp only [List.mem_cons, List.not_mem_nil, or_false] at hl
    rcases hl with rfl | rfl | rfl | rfl | rfl | rfl <;> simp_all
  · intro h1 l hl
    exact ⟨⟨l.1, trackOf l.2⟩, List.mem_append_right _ (hpm h1 l hl), rfl, track_draws _⟩

/-- **C265**: the last frame does not show the end of the path. -/
theorem C265_end_false : ¬ EndShown := by
  intro h
  let i : PathInput := { quiet with camera1 := [pt 0, pt 40] }
  have hm : pointsShown i = [pt 0, pt 40] := by decide +kernel
  obtain ⟨ts, gap, h1, _, _, h4, _⟩ := C265_steps_partial i (pt 0) (pt 40) (by rw [hm]; simp) (by rw [hm]; simp)
    (by rw [hm]; intro x hx; simp only [List.mem_cons, List.not_mem_nil, or_false] at hx; rcases hx with rfl | rfl <;> norm_num [pt])
    (by norm_num [pt])
  have hne : ts ≠ [] := by rintro rfl; simp at h4
  have hs : (plotPaths i).slider = some (ts.map fun t => (t, pathFrame i t)) := by
    unfold plotPaths
    have : pathFigure i = .ok [⟨"dr_camera1", trackOf [pt 0, pt 40]⟩] := rfl
    rw [this]
    simp only [h1]
  have hl : (ts.map fun t => (t, pathFrame i t)).getLast? = some (ts.getLast hne, pathFrame i (ts.getLast hne)) := by
    rw [List.getLast?_map, List.getLast?_eq_some_getLast hne]
    rfl
  have hlt := C265_last i ts h1 (pt 40) (by rw [hm]; simp)
    (by rw [hm]; intro x hx; simp only [List.mem_cons, List.not_mem_nil, or_false] at hx; rcases hx with rfl | rfl <;> norm_num [pt])
    _ (List.getLast_mem hne)
  obtain ⟨tr, htr, _, hd⟩ := h i _ _ _ hs hl ("dr_camera1", [pt 0, pt 40]) (by decide +kernel)
  have hf : pathFrame i (ts.getLast hne) = [makeFrame "dr_camera1" [pt 0, pt 40] (ts.getLast hne)] := rfl
  rw [hf, List.mem_singleton] at htr
  subst htr
  have h2 := hd.1
  rw [frame_eq] at h2
  have h40 : ¬ (40 : ℚ) ≤ (ts.getLast hne : ℚ) := not_le.mpr hlt
  have : ((([pt 0, pt 40]).takeWhile fun p => decide (p.time ≤ (ts.getLast hne : ℚ)))).length ≤ 1 := by
    rw [List.takeWhile_cons]
    split
    · rw [List.takeWhile_cons, if_neg (by rw [decide_eq_true_eq]; exact h40)]
      simp
    · simp
  simp only [trackOf, List.length_map, List.length_cons, List.length_nil] at h2
  omega

end Oplab.Props
