import Verif.Spec.TimePlots
import Mathlib.Tactic.NormNum

/-! C266: plots against time. -/

namespace Oplab.Props
open Oplab Oplab.Spec

/-- Compares two names. -/
local macro "names" : tactic => `(tactic| (dsimp -failIfUnchanged only [dvlTrace] <;> decide +kernel))

private theorem floats_ok : ∀ (l : List (Option ℚ)) (r : List ℚ), allFloats l = .ok r ↔ l = r.map some
  | [], r => by
    constructor
    · intro h; cases h; rfl
    · intro h
      cases r with
      | nil => rfl
      | cons a b => simp at h
  | none :: l, r => by
    constructor
    · intro h; cases h
    · intro h
      cases r with
      | nil => simp at h
      | cons a b => simp at h
  | some x :: l, r => by
    have ih := floats_ok l
    constructor
    · intro h
      unfold allFloats at h
      cases hl : allFloats l with
      | error e => rw [hl] at h; cases h
      | ok q =>
        rw [hl] at h
        cases h
        rw [(ih q).mp hl]
        rfl
    · intro h
      cases r with
      | nil => simp at h
      | cons a b =>
        simp only [List.map_cons, List.cons.injEq, Option.some.injEq] at h
        obtain ⟨rfl, h2⟩ := h
        unfold allFloats
        rw [(ih b).mpr h2]
        rfl

private theorem floats_given {α : Type} (l : List α) (f : α → Option ℚ) (h : ColumnGiven l f) : ∃ r, allFloats (l.map f) = .ok r ∧ l.map f = r.map some := by
  induction l with
  | nil => exact ⟨[], rfl, rfl⟩
  | cons v l ih =>
    obtain ⟨r, hr, he⟩ := ih fun w hw => h w (List.mem_cons_of_mem _ hw)
    obtain ⟨x, hx⟩ := Option.isSome_iff_exists.mp (h v (by simp))
    refine ⟨x :: r, (floats_ok _ _).mpr ?_, ?_⟩ <;> simp [hx, he]

private theorem trace_given {l : List GroundVelocity} {f : GroundVelocity → Option ℚ} (h : ColumnGiven l f) (name : String) (row col : ℕ) :
    ∃ t, timeTrace (l.map (·.time)) (l.map f) name row col = .ok t ∧ t.name = name ∧ t.row = row ∧ t.col = col ∧ ShowsColumn t l (·.time) f := by
  obtain ⟨r, hr, he⟩ := floats_given l f h
  refine ⟨⟨name, l.map (·.time), r, row, col⟩, ?_, rfl, rfl, rfl, rfl, he.symm⟩
  unfold timeTrace
  rw [hr]
  rfl

private theorem made_given {l : List GroundVelocity} {f : GroundVelocity → Option ℚ} (h : ColumnGiven l f ∨ ∀ v ∈ l, f v = none) (name : String)
    (row col : ℕ) : ∃ ts, madeIfFirst l f name row col = .ok ts ∧ (l ≠ [] → ColumnGiven l f → ∃ t ∈ ts, t.name = name ∧ t.row = row ∧ t.col = col ∧
      ShowsColumn t l (·.time) f) ∧ ∀ t ∈ ts, t.name = name := by
  cases hl : l with
  | nil => exact ⟨[], rfl, fun h => absurd rfl h, by simp⟩
  | cons v w =>
    rcases h with h | h
    · obtain ⟨t, ht, hn, h1, h2, h3⟩ := trace_given h name row col
      rw [hl] at h ht h3
      refine ⟨[t], ?_, fun _ _ => ⟨t, by simp, hn, h1, h2, h3⟩, by simpa using hn⟩
      unfold madeIfFirst
      simp only
      rw [if_pos (h v (by simp)), ht]
      rfl
    · rw [hl] at h
      refine ⟨[], ?_, fun _ hg => ?_, by simp⟩
      · unfold madeIfFirst
        simp only
        rw [if_neg (by rw [h v (by simp)]; simp)]
      · have := hg v (by simp)
        rw [h v (by simp)] at this
        simp at this

/-- **C266** (partial: north and east velocities over ground are given for all records, and down velocities for all or none): velocity_vs_time.html is drawn and
shows all velocities at their times, those over ground beside those of the DVL. -/
theorem C266_velocity_partial (sensor : String) (dvl : List ReckonedVelocity) (l : List GroundVelocity) (hn : ColumnGiven l (·.north))
    (he : ColumnGiven l (·.east)) (hd : ColumnGiven l (·.down) ∨ ∀ v ∈ l, v.down = none) :
    ∃ ts, velocityPlot sensor dvl l = .ok ts ∧
      (∀ c ∈ [("north", 1, 1, fun v : ReckonedVelocity => v.north), ("east", 2, 1, (·.east)), ("down", 3, 1, (·.down)), ("x", 1, 2, (·.x)),
        ("y", 2, 2, (·.y)), ("z", 3, 2, (·.z))], ∃ t ∈ ts, t.name = "DVL " ++ c.1 ++ " velocity" ∧ t.row = c.2.1 ∧ t.col = c.2.2.1 ∧
          ShowsColumn t dvl (·.time) fun v => some (c.2.2.2 v)) ∧
      (l ≠ [] → ∀ c ∈ [("north", 1, fun v : GroundVelocity => v.north), ("east", 2, (·.east)), ("down", 3, (·.down))], ColumnGiven l c.2.2 →
        ∃ t ∈ ts, t.name = sensor ++ (" " ++ c.1 ++ " velocity") ∧ t.row = c.2.1 ∧ t.col = 1 ∧ ShowsColumn t l (·.time) c.2.2) := by
  have hg : ∃ g, groundTraces sensor l = .ok g ∧
      (l ≠ [] → ∀ c ∈ [("north", 1, fun v : GroundVelocity => v.north), ("east", 2, (·.east)), ("down", 3, (·.down))], ColumnGiven l c.2.2 →
        ∃ t ∈ g, t.name = sensor ++ (" " ++ c.1 ++ " velocity") ∧ t.row = c.2.1 ∧ t.col = 1 ∧ ShowsColumn t l (·.time) c.2.2) := by
    cases hl : l with
    | nil => exact ⟨[], rfl, fun h => absurd rfl h⟩
    | cons v w =>
      rw [← hl]
      obtain ⟨n, hn1, hn2⟩ := trace_given hn (sensor ++ " north velocity") 1 1
      obtain ⟨e, he1, he2⟩ := trace_given he (sensor ++ " east velocity") 2 1
      obtain ⟨d, hd1, hd2, _⟩ := made_given hd (sensor ++ " down velocity") 3 1
      have f1 : ifFirst l (·.north) n = [n] := by
        rw [hl] at hn ⊢; unfold ifFirst; exact if_pos (hn v (by simp))
      have f2 : ifFirst l (·.east) e = [e] := by
        rw [hl] at he ⊢; unfold ifFirst; exact if_pos (he v (by simp))
      refine ⟨[n] ++ [e] ++ d, ?_, ?_⟩
      · have : groundTraces sensor l = (do
            let n ← timeTrace (l.map (·.time)) (l.map (·.north)) (sensor ++ " north velocity") 1 1
            let e ← timeTrace (l.map (·.time)) (l.map (·.east)) (sensor ++ " east velocity") 2 1
            let d ← madeIfFirst l (·.down) (sensor ++ " down velocity") 3 1
            .ok (ifFirst l (·.north) n ++ ifFirst l (·.east) e ++ d)) := by rw [hl]; rfl
        rw [this, hn1, he1, hd1, ← f1, ← f2]
        rfl
      · intro hne c hc hcg
        simp only [List.mem_cons, List.not_mem_nil, or_false] at hc
        rcases hc with rfl | rfl | rfl
        · exact ⟨n, by simp, hn2⟩
        · exact ⟨e, by simp, he2⟩
        · obtain ⟨t, ht, h4⟩ := hd2 hne hcg
          exact ⟨t, by simp [ht], h4⟩
  obtain ⟨g, hg1, hg2⟩ := hg
  refine ⟨_, by unfold velocityPlot; rw [hg1]; rfl, ?_, ?_⟩
  · intro c hc
    simp only [List.mem_cons, List.not_mem_nil, or_false] at hc
    rcases hc with rfl | rfl | rfl | rfl | rfl | rfl
    · exact ⟨dvlTrace dvl (·.north) "DVL north velocity" 1 1, by simp, by names, rfl, rfl, rfl, by simp [dvlTrace]⟩
    · exact ⟨dvlTrace dvl (·.east) "DVL east velocity" 2 1, by simp, by names, rfl, rfl, rfl, by simp [dvlTrace]⟩
    · exact ⟨dvlTrace dvl (·.down) "DVL down velocity" 3 1, by simp, by names, rfl, rfl, rfl, by simp [dvlTrace]⟩
    · exact ⟨dvlTrace dvl (·.x) "DVL x velocity" 1 2, by simp, by names, rfl, rfl, rfl, by simp [dvlTrace]⟩
    · exact ⟨dvlTrace dvl (·.y) "DVL y velocity" 2 2, by simp, by names, rfl, rfl, rfl, by simp [dvlTrace]⟩
    · exact ⟨dvlTrace dvl (·.z) "DVL z velocity" 3 2, by simp, by names, rfl, rfl, rfl, by simp [dvlTrace]⟩
  · intro hne c hc hcg
    obtain ⟨t, ht, h⟩ := hg2 hne c hc hcg
    exact ⟨t, by simp [ht], h⟩

/-- **C266** (partial: each standard deviation is given for all records or for none): the standard deviations of velocities over ground are shown. -/
theorem C266_uncertainty_partial (l : List GroundVelocity) (hn : ColumnGiven l (·.northStd) ∨ ∀ v ∈ l, v.northStd = none)
    (he : ColumnGiven l (·.eastStd) ∨ ∀ v ∈ l, v.eastStd = none) (hd : ColumnGiven l (·.downStd) ∨ ∀ v ∈ l, v.downStd = none) :
    ∃ ts, groundStdTraces l = .ok ts ∧
      (l ≠ [] → ∀ c ∈ [("north", fun v : GroundVelocity => v.northStd), ("east", (·.eastStd)), ("down", (·.downStd))], ColumnGiven l c.2 →
        ∃ t ∈ ts, t.name = c.1 ++ " velocity std inertial" ∧ t.row = 2 ∧ t.col = 2 ∧ ShowsColumn t l (·.time) c.2) := by
  obtain ⟨n, hn1, hn2, _⟩ := made_given hn "north velocity std inertial" 2 2
  obtain ⟨e, he1, he2, _⟩ := made_given he "east velocity std inertial" 2 2
  obtain ⟨d, hd1, hd2, _⟩ := made_given hd "down velocity std inertial" 2 2
  refine ⟨n ++ e ++ d, by unfold groundStdTraces; rw [hn1, he1, hd1]; rfl, ?_⟩
  intro hne c hc hcg
  simp only [List.mem_cons, List.not_mem_nil, or_false] at hc
  rcases hc with rfl | rfl | rfl
  · obtain ⟨t, ht, h0, h⟩ := hn2 hne hcg
    exact ⟨t, by simp [ht], h0.trans (by decide +kernel), h⟩
  · obtain ⟨t, ht, h0, h⟩ := he2 hne hcg
    exact ⟨t, by simp [ht], h0.trans (by decide +kernel), h⟩
  · obtain ⟨t, ht, h0, h⟩ := hd2 hne hcg
    exact ⟨t, by simp [ht], h0.trans (by decide +kernel), h⟩

private def gv (t : ℚ) (n d : Option ℚ) : GroundVelocity := ⟨t, n, some 1, d, n, some 1, d⟩

/-- **C266**: one record without a north velocity and the plot is not drawn, although it has a check for that. -/
theorem C266_velocity_false : ¬ VelocitiesDrawn := by
  intro h
  obtain ⟨ts, e⟩ := h "phins" [] [gv 0 none none]
  cases e

/-- **C266**: down velocities for some records only. -/
theorem C266_uncertainty_false : ¬ UncertaintiesDrawn := by
  intro h
  obtain ⟨ts, e⟩ := h [gv 0 (some 1) (some 1), gv 1 (some 1) none]
  cases e

private theorem upper (value std : List ℚ) (xs : List ℚ) (name : String) (r c : ℕ) : UpperBound ⟨name, xs, plusSigma value std, r, c⟩ value std := by
  intro k y h
  simp only [plusSigma, List.getElem?_zipWith] at h
  cases hv : value[k]? <;> cases hs : std[k]? <;> simp_all

private theorem lower (value std : List ℚ) (xs : List ℚ) (name : String) (r c : ℕ) : LowerBound ⟨name, xs, minusSigma value std, r, c⟩ value std := by
  intro k y h
  simp only [minusSigma, List.getElem?_zipWith] at h
  cases hv : value[k]? <;> cases hs : std[k]? <;> simp_all

/-- **C266**: bounds of positions are what they are called, one standard deviation above and below. -/
theorem C266_position : BoundNames positionPlot positionNames := by
  intro i ts h n hn
  unfold positionPlot at h
  split at h
  · cases h
  split at h
  · cases h
  rename_i h1 h2
  simp only [not_not] at h1 h2
  obtain ⟨a1, a2, a3⟩ := h1
  obtain ⟨b1, b2, b3⟩ := h2
  simp only [Except.ok.injEq] at h
  subst h
  simp only [positionNames, List.mem_cons, List.not_mem_nil, or_false] at hn
  have lp : ∀ a b : List ℚ, a.length = i.times.length → b.length = i.times.length → (plusSigma a b).length = i.times.length := by
    intro a b ha hb; simp [plusSigma, ha, hb]
  have lm : ∀ a b : List ℚ, a.length = i.times.length → b.length = i.times.length → (minusSigma a b).length = i.times.length := by
    intro a b ha hb; simp [minusSigma, ha, hb]
  rcases hn with rfl | rfl | rfl
  · refine ⟨?_, ⟨⟨"northing+sigma", i.times, plusSigma i.a i.aStd, 1, 1⟩, by simp, by names, lp _ _ (by omega) (by omega)⟩, ?_,
      ⟨⟨"northing-sigma", i.times, minusSigma i.a i.aStd, 1, 1⟩, by simp, by names, lm _ _ (by omega) (by omega)⟩⟩
    · have e : ("northing" ++ "+sigma" : String) = "northing+sigma" := by decide +kernel
      simp only [e]
      intro t ht hname
      simp only [List.mem_cons, List.not_mem_nil, or_false] at ht
      rcases ht with rfl | rfl | rfl | rfl | rfl | rfl | rfl | rfl | rfl | rfl | rfl | rfl <;>
        first | exact upper _ _ _ _ _ _ | exact absurd hname (by names)
    · have e : ("northing" ++ "-sigma" : String) = "northing-sigma" := by decide +kernel
      simp only [e]
      intro t ht hname
      simp only [List.mem_cons, List.not_mem_nil, or_false] at ht
      rcases ht with rfl | rfl | rfl | rfl | rfl | rfl | rfl | rfl | rfl | rfl | rfl | rfl <;>
        first | exact lower _ _ _ _ _ _ | exact absurd hname (by names)
  · refine ⟨?_, ⟨⟨"easting+sigma", i.times, plusSigma i.b i.bStd, 1, 2⟩, by simp, by names, lp _ _ (by omega) (by omega)⟩, ?_,
      ⟨⟨"easting-sigma", i.times, minusSigma i.b i.bStd, 1, 2⟩, by simp, by names, lm _ _ (by omega) (by omega)⟩⟩
    · have e : ("easting" ++ "+sigma" : String) = "easting+sigma" := by decide +kernel
      simp only [e]
      intro t ht hname
      simp only [List.mem_cons, List.not_mem_nil, or_false] at ht
      rcases ht with rfl | rfl | rfl | rfl | rfl | rfl | rfl | rfl | rfl | rfl | rfl | rfl <;>
        first | exact upper _ _ _ _ _ _ | exact absurd hname (by names)
    · have e : ("easting" ++ "-sigma" : String) = "easting-sigma" := by decide +kernel
      simp only [e]
      intro t ht hname
      simp only [List.mem_cons, List.not_mem_nil, or_false] at ht
      rcases ht with rfl | rfl | rfl | rfl | rfl | rfl | rfl | rfl | rfl | rfl | rfl | rfl <;>
        first | exact lower _ _ _ _ _ _ | exact absurd hname (by names)
  · refine ⟨?_, ⟨⟨"depth+sigma", i.times, plusSigma i.c i.cStd, 1, 3⟩, by simp, by names, lp _ _ (by omega) (by omega)⟩, ?_,
      ⟨⟨"depth-sigma", i.times, minusSigma i.c i.cStd, 1, 3⟩, by simp, by names, lm _ _ (by omega) (by omega)⟩⟩
    · have e : ("depth" ++ "+sigma" : String) = "depth+sigma" := by decide +kernel
      simp only [e]
      intro t ht hname
      simp only [List.mem_cons, List.not_mem_nil, or_false] at ht
      rcases ht with rfl | rfl | rfl | rfl | rfl | rfl | rfl | rfl | rfl | rfl | rfl | rfl <;>
        first | exact upper _ _ _ _ _ _ | exact absurd hname (by names)
    · have e : ("depth" ++ "-sigma" : String) = "depth-sigma" := by decide +kernel
      simp only [e]
      intro t ht hname
      simp only [List.mem_cons, List.not_mem_nil, or_false] at ht
      rcases ht with rfl | rfl | rfl | rfl | rfl | rfl | rfl | rfl | rfl | rfl | rfl | rfl <;>
        first | exact lower _ _ _ _ _ _ | exact absurd hname (by names)

/-- The case above is not empty: one position with standard deviations. -/
example : ∃ ts, positionPlot ⟨[0], [1], [2], [3], [1], [1], [1]⟩ = .ok ts ∧ (⟨"easting+sigma", [0], [3], 1, 2⟩ : TimeTrace) ∈ ts ∧
    (⟨"easting-sigma", [0], [1], 1, 2⟩ : TimeTrace) ∈ ts := ⟨_, rfl, by decide +kernel, by decide +kernel⟩

/-- And one velocity with and without a down component. -/
example : ColumnGiven [gv 0 (some 1) none, gv 1 (some 2) none] (·.north) ∧ ∀ v ∈ [gv 0 (some 1) none, gv 1 (some 2) none], v.down = none := by
  constructor <;> intro v hv <;> simp only [List.mem_cons, List.not_mem_nil, or_false] at hv <;> rcases hv with rfl | rfl <;> rfl

/-- **C266**: lower bounds of orientations are called upper bounds. -/
theorem C266_orientation_false : ¬ BoundNames orientationPlot orientationNames := by
  intro h
  have := (h ⟨[0], [0], [0], [0], [1], [1], [1]⟩ _ rfl ("roll", (·.a), (·.aStd)) (by simp [orientationNames])).1
    ⟨"roll+sigma", [0], minusSigma [0] [1], 1, 1⟩ (by simp) (by decide +kernel)
  obtain ⟨v, s, hv, hs, e⟩ := this 0 (-1) (by decide +kernel)
  simp only [List.getElem?_cons_zero, Option.some.injEq] at hv hs
  subst hv hs
  norm_num at e

/-- **C266** (partial: what the lines show, not their names): there are bounds one standard deviation above and below each angle, and no others. -/
theorem C266_orientation_partial (i : BandInput) (ts : List TimeTrace) (h : orientationPlot i = .ok ts) (hc : i.c.length = i.times.length)
    (n : String × (BandInput → List ℚ) × (BandInput → List ℚ)) (hn : n ∈ orientationNames) :
    (∃ t ∈ ts, t.name = n.1 ++ "+sigma" ∧ UpperBound t (n.2.1 i) (n.2.2 i) ∧ t.ys.length = i.times.length) ∧
    (∃ t ∈ ts, t.name = n.1 ++ "+sigma" ∧ LowerBound t (n.2.1 i) (n.2.2 i) ∧ t.ys.length = i.times.length) ∧
    ∀ t ∈ ts, t.name = n.1 ++ "+sigma" → UpperBound t (n.2.1 i) (n.2.2 i) ∨ LowerBound t (n.2.1 i) (n.2.2 i) := by
  unfold orientationPlot at h
  split at h
  · cases h
  split at h
  · cases h
  rename_i h1 h2
  simp only [not_not] at h1 h2
  obtain ⟨a1, a2⟩ := h1
  obtain ⟨b1, b2, b3⟩ := h2
  simp only [Except.ok.injEq] at h
  subst h
  have lp : ∀ a b : List ℚ, a.length = i.times.length → b.length = i.times.length → (plusSigma a b).length = i.times.length := by
    intro a b ha hb; simp [plusSigma, ha, hb]
  have lm : ∀ a b : List ℚ, a.length = i.times.length → b.length = i.times.length → (minusSigma a b).length = i.times.length := by
    intro a b ha hb; simp [minusSigma, ha, hb]
  have e1 : ("roll" ++ "+sigma" : String) = "roll+sigma" := by decide +kernel
  have e2 : ("pitch" ++ "+sigma" : String) = "pitch+sigma" := by decide +kernel
  have e3 : ("yaw" ++ "+sigma" : String) = "yaw+sigma" := by decide +kernel
  simp only [orientationNames, List.mem_cons, List.not_mem_nil, or_false] at hn
  refine ⟨?_, ?_, ?third⟩
  case third =>
    intro t ht hname
    simp only [List.mem_cons, List.not_mem_nil, or_false] at ht
    rcases hn with rfl | rfl | rfl
    all_goals
      simp only [e1, e2, e3] at hname
      rcases ht with rfl | rfl | rfl | rfl | rfl | rfl | rfl | rfl | rfl | rfl | rfl | rfl <;>
        first
        | exact .inl (upper _ _ _ _ _ _)
        | exact .inr (lower _ _ _ _ _ _)
        | exact absurd hname (by names)
  · rcases hn with rfl | rfl | rfl
    · exact ⟨⟨"roll+sigma", i.times, plusSigma i.a i.aStd, 1, 1⟩, by simp, by names, upper _ _ _ _ _ _, lp _ _ (by omega) (by omega)⟩
    · exact ⟨⟨"pitch+sigma", i.times, plusSigma i.b i.bStd, 1, 2⟩, by simp, by names, upper _ _ _ _ _ _, lp _ _ (by omega) (by omega)⟩
    · exact ⟨⟨"yaw+sigma", i.times, plusSigma i.c i.cStd, 1, 3⟩, by simp, by names, upper _ _ _ _ _ _, lp _ _ (by omega) (by omega)⟩
  · rcases hn with rfl | rfl | rfl
    · exact ⟨⟨"roll+sigma", i.times, minusSigma i.a i.aStd, 1, 1⟩, by simp, by names, lower _ _ _ _ _ _, lm _ _ (by omega) (by omega)⟩
    · exact ⟨⟨"pitch+sigma", i.times, minusSigma i.b i.bStd, 1, 2⟩, by simp, by names, lower _ _ _ _ _ _, lm _ _ (by omega) (by omega)⟩
    · exact ⟨⟨"yaw+sigma", i.times, minusSigma i.c i.cStd, 1, 3⟩, by simp, by names, lower _ _ _ _ _ _, lm _ _ (by omega) (by omega)⟩

/-- **C266**: positions, their bounds and their deviations are drawn in the panels meant for them. -/
theorem C266_position_panels : InPanels positionPlot positionPanels := by
  intro i ts h p hp
  unfold positionPlot at h
  split at h
  · cases h
  split at h
  · cases h
  simp only [Except.ok.injEq] at h
  subst h
  simp only [positionPanels, List.mem_cons, List.not_mem_nil, or_false] at hp
  rcases hp with rfl | rfl | rfl
  · refine ⟨⟨⟨"northings (m)", i.times, i.a, 1, 1⟩, by simp, by simp⟩, ⟨⟨"northings std ekf (m)", i.times, i.aStd, 2, 1⟩, by simp, by simp⟩, ?_⟩
    intro t ht hn
    simp only [List.mem_cons, List.not_mem_nil, or_false] at ht hn
    rcases ht with rfl | rfl | rfl | rfl | rfl | rfl | rfl | rfl | rfl | rfl | rfl | rfl <;>
      first | exact ⟨rfl, rfl, rfl⟩ | (rcases hn with hn | hn <;> exact absurd hn (by names))
  · refine ⟨⟨⟨"eastings (m)", i.times, i.b, 1, 2⟩, by simp, by simp⟩, ⟨⟨"eastings std ekf (m)", i.times, i.bStd, 2, 2⟩, by simp, by simp⟩, ?_⟩
    intro t ht hn
    simp only [List.mem_cons, List.not_mem_nil, or_false] at ht hn
    rcases ht with rfl | rfl | rfl | rfl | rfl | rfl | rfl | rfl | rfl | rfl | rfl | rfl <;>
      first | exact ⟨rfl, rfl, rfl⟩ | (rcases hn with hn | hn <;> exact absurd hn (by names))
  · refine ⟨⟨⟨"depth (m)", i.times, i.c, 1, 3⟩, by simp, by simp⟩, ⟨⟨"depths std ekf (m)", i.times, i.cStd, 2, 3⟩, by simp, by simp⟩, ?_⟩
    intro t ht hn
    simp only [List.mem_cons, List.not_mem_nil, or_false] at ht hn
    rcases ht with rfl | rfl | rfl | rfl | rfl | rfl | rfl | rfl | rfl | rfl | rfl | rfl <;>
      first | exact ⟨rfl, rfl, rfl⟩ | (rcases hn with hn | hn <;> exact absurd hn (by names))

/-- **C266**: orientations, their bounds and their deviations are drawn in the panels meant for them. -/
theorem C266_orientation_panels : InPanels orientationPlot orientationPanels := by
  intro i ts h p hp
  unfold orientationPlot at h
  split at h
  · cases h
  split at h
  · cases h
  simp only [Except.ok.injEq] at h
  subst h
  simp only [orientationPanels, List.mem_cons, List.not_mem_nil, or_false] at hp
  rcases hp with rfl | rfl | rfl
  · refine ⟨⟨⟨"roll [deg]", i.times, i.a, 1, 1⟩, by simp, by simp⟩, ⟨⟨"roll std ekf [deg]", i.times, i.aStd, 2, 1⟩, by simp, by simp⟩, ?_⟩
    intro t ht hn
    simp only [List.mem_cons, List.not_mem_nil, or_false] at ht hn
    rcases ht with rfl | rfl | rfl | rfl | rfl | rfl | rfl | rfl | rfl | rfl | rfl | rfl <;>
      first | exact ⟨rfl, rfl, rfl⟩ | exact absurd hn (by names)
  · refine ⟨⟨⟨"pitch [deg]", i.times, i.b, 1, 2⟩, by simp, by simp⟩, ⟨⟨"pitch std ekf [deg]", i.times, i.bStd, 2, 2⟩, by simp, by simp⟩, ?_⟩
    intro t ht hn
    simp only [List.mem_cons, List.not_mem_nil, or_false] at ht hn
    rcases ht with rfl | rfl | rfl | rfl | rfl | rfl | rfl | rfl | rfl | rfl | rfl | rfl <;>
      first | exact ⟨rfl, rfl, rfl⟩ | exact absurd hn (by names)
  · refine ⟨⟨⟨"yaw [deg]", i.times, i.c, 1, 3⟩, by simp, by simp⟩, ⟨⟨"yaw std ekf [deg]", i.times, i.cStd, 2, 3⟩, by simp, by simp⟩, ?_⟩
    intro t ht hn
    simp only [List.mem_cons, List.not_mem_nil, or_false] at ht hn
    rcases ht with rfl | rfl | rfl | rfl | rfl | rfl | rfl | rfl | rfl | rfl | rfl | rfl <;>
      first | exact ⟨rfl, rfl, rfl⟩ | exact absurd hn (by names)

/-- A run with one pose is drawn. -/
example : (∃ ts, positionPlot ⟨[0], [0], [0], [0], [1], [1], [1]⟩ = .ok ts) ∧ ∃ ts, orientationPlot ⟨[0], [0], [0], [0], [1], [1], [1]⟩ = .ok ts :=
  ⟨⟨_, rfl⟩, ⟨_, rfl⟩⟩

end Oplab.Props
