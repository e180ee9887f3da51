import Verif.Spec.LaserYaml

/-! C262: the settings of the calibration of the lasers. -/

namespace Oplab.Props
open Oplab Oplab.Spec

private theorem bind_ok {α β : Type} {x : Res α} {f : α → Res β} {c : β} (h : (x >>= f) = .ok c) :
    ∃ a, x = .ok a ∧ f a = .ok c := by
  cases x with
  | error e => exact absurd h (by intro h; cases h)
  | ok a => exact ⟨a, rfl, h⟩

private theorem section_ok {config d : Node} {key : String} (h : laserSection config key = .ok d) (k : String) (v : Y) :
    d.getD k v = (valueIn config key k).getD v := by
  unfold laserSection at h
  unfold valueIn
  cases hk : config.lookup key with
  | none =>
    rw [hk] at h
    cases h
    rfl
  | some y =>
    rw [hk] at h
    cases y with
    | dict e => cases h; rfl
    | null => cases h
    | bool b => cases h
    | num q => cases h
    | str s => cases h
    | list l => cases h

private theorem config_ok {config : Node} {c : LaserConfig} (h : laserConfig config = .ok c) :
    ∃ d s r, laserSection config "detection" = .ok d ∧ laserSection config "stratify" = .ok s ∧
      laserSection config "ransac" = .ok r ∧ c = laserFields d s r := by
  unfold laserConfig at h
  split at h
  · obtain ⟨d, hd, h⟩ := bind_ok h
    obtain ⟨s, hs, h⟩ := bind_ok h
    obtain ⟨r, hr, h⟩ := bind_ok h
    cases h
    exact ⟨d, s, r, hd, hs, hr, rfl⟩
  · cases h

/-- **C262** (partial: all settings but the number of points in a bin): a setting is what calibration.yaml says, or its default. -/
theorem C262_settings_partial : ∀ s ∈ laserSettingsTable, Taken s := by
  intro s hs config c h
  obtain ⟨d, st, r, h1, h2, h3, rfl⟩ := config_ok h
  simp only [laserSettingsTable, List.mem_cons, List.not_mem_nil, or_false] at hs
  rcases hs with rfl | rfl | rfl | rfl | rfl | rfl | rfl | rfl | rfl | rfl | rfl | rfl | rfl | rfl | rfl | rfl | rfl <;>
    first
    | exact section_ok h1 _ _
    | exact section_ok h2 _ _
    | exact section_ok h3 _ _

/-- **C262**: the number of points in a bin is read under another key than the one of the file that comes with the program, where
it has no effect. -/
theorem C262_settings_false : ¬ Taken pointsPerBin := by
  intro h
  have e := h [("stratify", .dict [("max_points_per_bin", .num 7)])] _ rfl
  have e' : Y.num 300 = Y.num 7 := e
  norm_num at e'

/-- **C262**: settings are accepted exactly if there is no section `filter` and the three sections are mappings or missing. -/
theorem C262_accepted (config : Node) :
    (∃ c, laserConfig config = .ok c) ↔
      (config.lookup "filter" = none ∨ config.lookup "filter" = some .null) ∧
      ∀ k ∈ ["detection", "stratify", "ransac"], config.lookup k = none ∨ ∃ d, config.lookup k = some (.dict d) := by
  have hsec : ∀ k, (∃ d, laserSection config k = .ok d) ↔ (config.lookup k = none ∨ ∃ d, config.lookup k = some (.dict d)) := by
    intro k
    unfold laserSection
    cases config.lookup k with
    | none => simp
    | some y => cases y <;> simp
  have hfil : (config.lookup "filter" = none ∨ config.lookup "filter" = some .null) ↔ config.getD "filter" .null = .null := by
    unfold Node.getD
    cases config.lookup "filter" with
    | none => simp
    | some y => simp
  rw [hfil]
  constructor
  · rintro ⟨c, h⟩
    obtain ⟨d, s, r, h1, h2, h3, _⟩ := config_ok h
    refine ⟨?_, ?_⟩
    · unfold laserConfig at h
      split at h
      · assumption
      · cases h
    · intro k hk
      simp only [List.mem_cons, List.not_mem_nil, or_false] at hk
      rcases hk with rfl | rfl | rfl
      · exact (hsec _).1 ⟨_, h1⟩
      · exact (hsec _).1 ⟨_, h2⟩
      · exact (hsec _).1 ⟨_, h3⟩
  · rintro ⟨hf, hk⟩
    obtain ⟨d, hd⟩ := (hsec _).2 (hk "detection" (by simp))
    obtain ⟨s, hs⟩ := (hsec _).2 (hk "stratify" (by simp))
    obtain ⟨r, hr⟩ := (hsec _).2 (hk "ransac" (by simp))
    refine ⟨laserFields d s r, ?_⟩
    unfold laserConfig
    rw [hf]
    simp only [hd, hs, hr]
    rfl

/-- **C262**: what is written about the first laser depends on `remap`, the range and number of the bins and the distance
threshold only (and the number of points under the key that is read): files that agree on these, and are accepted, give the same
result, whatever they say about `max_points_per_bin`, `max_cloud_size`, `sample_size_ratio`, `goal_inliers_ratio` or
`max_iterations`. -/
theorem C262_unused (sheet : LaserSettings → Res (Option LaserFit)) (config config' : Node) (planes : ℕ) (c c' : LaserConfig)
    (h : laserConfig config = .ok c) (h' : laserConfig config' = .ok c')
    (h1 : SameIn config config' "detection" "remap") (h2 : SameIn config config' "stratify" "min_z_m")
    (h3 : SameIn config config' "stratify" "max_z_m") (h4 : SameIn config config' "stratify" "number_of_bins")
    (h5 : SameIn config config' "stratify" "max_bin_elements") (h6 : SameIn config config' "ransac" "min_distance_threshold") :
    laserFromYaml sheet config planes = laserFromYaml sheet config' planes := by
  have hp := C262_settings_partial
  have g : ∀ s ∈ laserSettingsTable, SameIn config config' s.part s.key → s.place c = s.place c' := by
    intro s hs e
    rw [hp s hs config c h, hp s hs config' c' h', e]
  have g1 : c.remap = c'.remap := g ⟨"detection", "remap", .bool true, (·.remap)⟩ (by simp [laserSettingsTable]) h1
  have g2 : c.minZ = c'.minZ := g ⟨"stratify", "min_z_m", .num 1, (·.minZ)⟩ (by simp [laserSettingsTable]) h2
  have g3 : c.maxZ = c'.maxZ := g ⟨"stratify", "max_z_m", .num 20, (·.maxZ)⟩ (by simp [laserSettingsTable]) h3
  have g4 : c.bins = c'.bins := g ⟨"stratify", "number_of_bins", .num 5, (·.bins)⟩ (by simp [laserSettingsTable]) h4
  have g6 : c.threshold = c'.threshold :=
    g ⟨"ransac", "min_distance_threshold", .num (2 / 1000), (·.threshold)⟩ (by simp [laserSettingsTable]) h6
  have g5 : c.maxPoints = c'.maxPoints := by
    obtain ⟨d, s, r, _, k2, _, rfl⟩ := config_ok h
    obtain ⟨d', s', r', _, k2', _, rfl⟩ := config_ok h'
    change s.getD _ _ = s'.getD _ _
    rw [section_ok k2, section_ok k2', h5]
  unfold laserFromYaml
  rw [h, h']
  change (laserSettingsOf c planes >>= sheet) = (laserSettingsOf c' planes >>= sheet)
  unfold laserSettingsOf
  rw [g1, g2, g3, g4, g5, g6]

/-- **C262** (partial: files with a section `detection`): both lasers are written when two are asked for. -/
theorem C262_outputs_partial (config : Node) (c : LaserConfig) (h : laserConfig config = .ok c)
    (hd : (config.lookup "detection").isSome = true) :
    laserOutputs config = (if c.twoLasers.truth = true then ["laser", "laser_b"] else ["laser"], none) := by
  obtain ⟨d, s, r, h1, h2, h3, rfl⟩ := config_ok h
  unfold laserSection at h1
  unfold laserOutputs
  cases hk : config.lookup "detection" with
  | none => simp [hk] at hd
  | some y =>
    rw [hk] at h1
    cases y with
    | dict e =>
      cases h1
      change _ = (if ((d.lookup "two_lasers").getD (.bool false)).truth = true then _ else _, _)
      cases ht : d.lookup "two_lasers" with
      | none => simp [Y.truth, ht]
      | some v =>
        simp only [Option.getD_some, ht]
        split <;> rfl
    | null => cases h1
    | bool b => cases h1
    | num q => cases h1
    | str s => cases h1
    | list l => cases h1

/-- **C262**: without the section, all settings have their defaults and the laser is calibrated and written, but then the program
ends with a `KeyError`. -/
theorem C262_outputs_false : ¬ WritesLasers := by
  intro h
  have e := h [] _ rfl
  simp [laserOutputs] at e

private theorem truth_false (y : Y) : y.truth = false ↔ CountsAsFalse y := by
  constructor
  · intro h
    cases y with
    | null => exact .null
    | bool b =>
      cases b with
      | false => exact .false
      | true => simp [Y.truth] at h
    | num q =>
      have : q = 0 := by simpa [Y.truth] using h
      subst this; exact .zero
    | str s =>
      have : s = "" := by simpa [Y.truth] using h
      subst this; exact .text
    | list l =>
      cases l with
      | nil => exact .list
      | cons a l => simp [Y.truth] at h
    | dict d =>
      cases d with
      | nil => exact .dict
      | cons a l => simp [Y.truth] at h
  · intro h
    cases h <;> simp [Y.truth]

/-- **C262**: the second laser is written exactly if `two_lasers` is there and does not count as false; the first one always is. -/
theorem C262_second (config d : Node) (hd : config.lookup "detection" = some (.dict d)) :
    "laser" ∈ (laserOutputs config).1 ∧
      ("laser_b" ∈ (laserOutputs config).1 ↔ ∃ y, d.lookup "two_lasers" = some y ∧ ¬ CountsAsFalse y) := by
  unfold laserOutputs
  rw [hd]
  dsimp only
  cases h : d.lookup "two_lasers" with
  | none => simp
  | some y =>
    dsimp only
    have ht := truth_false y
    cases hy : y.truth with
    | false => simpa using ht.1 hy
    | true =>
      have : ¬ CountsAsFalse y := fun hn => by rw [ht.2 hn] at hy; cases hy
      simpa using this

/-- **C262**: without the section `detection`, or if it is no mapping, the first laser is written before the program fails. -/
theorem C262_first (config : Node) (hd : ∀ d, config.lookup "detection" ≠ some (.dict d)) :
    (laserOutputs config).1 = ["laser"] ∧ (laserOutputs config).2 ≠ none := by
  unfold laserOutputs
  split
  · exact ⟨rfl, by simp⟩
  · rename_i d h; exact absurd h (hd d)
  · exact ⟨rfl, by simp⟩

/-- **C262**: numbers in the file are used as they are, if the numbers of bins and of points are whole; `remap` is off exactly if it counts as
false. -/
theorem C262_used (c : LaserConfig) (planes bins pts : ℕ) (lo hi th : ℚ) (h1 : c.minZ = .num lo) (h2 : c.maxZ = .num hi)
    (h3 : c.bins = .num bins) (h4 : c.maxPoints = .num pts) (h5 : c.threshold = .num th) :
    ∃ s, laserSettingsOf c planes = .ok s ∧ s.lo = lo ∧ s.hi = hi ∧ s.bins = bins ∧ s.maxPts = pts ∧ s.threshold = th ∧
      s.planes = planes ∧ (s.remap = false ↔ CountsAsFalse c.remap) := by
  refine ⟨⟨c.remap.truth, lo, hi, bins, pts, th, planes⟩, ?_, rfl, rfl, rfl, rfl, rfl, rfl, truth_false _⟩
  have hc : ∀ n : ℕ, (Y.num (n : ℚ)).asCount = .ok n := by
    intro n
    simp [Y.asCount, Y.asNum, bind, Except.bind]
  unfold laserSettingsOf
  rw [h1, h2, h3, h4, h5, hc, hc]
  rfl

/-- **C262**: a number of bins or of points that is not whole is an error. -/
theorem C262_whole (c : LaserConfig) (planes : ℕ) (q : ℚ) (hq : ∀ n : ℤ, q ≠ n) (h : c.bins = .num q ∨ c.maxPoints = .num q) :
    ∃ e, laserSettingsOf c planes = .error e := by
  have hc : (Y.num q).asCount = .error .typeError := by
    have : ¬ q.den = 1 := fun hd => hq q.num ((Rat.den_eq_one_iff q).1 hd).symm
    simp [Y.asCount, Y.asNum, bind, Except.bind, this]
  unfold laserSettingsOf
  simp only [bind, Except.bind]
  rcases h with h | h <;> rw [h, hc] <;> (repeat' split) <;> simp_all

-- Ten bins of points; half a bin is refused.
example : (∃ s, laserSettingsOf { laserFields [] [] [] with bins := .num (10 : ℕ) } 300 = .ok s ∧ s.bins = 10) ∧
    ∃ e, laserSettingsOf { laserFields [] [] [] with bins := .num (1 / 2) } 300 = .error e := by
  refine ⟨?_, C262_whole _ _ (1 / 2) ?_ (Or.inl rfl)⟩
  · obtain ⟨s, hs, _, _, hb, _⟩ := C262_used { laserFields [] [] [] with bins := .num (10 : ℕ) } 300 10 300 1 20 (2 / 1000) rfl rfl rfl
      (by norm_num [laserFields, Node.getD]) rfl
    exact ⟨s, hs, hb⟩
  · intro n hn
    have : (1 : ℤ) = 2 * n := by
      have : (1 : ℚ) = 2 * n := by linarith
      exact_mod_cast this
    omega

-- The threshold of a file, the default of another setting, and both lasers.
example : ∃ c, laserConfig [("detection", .dict [("two_lasers", .bool true)]), ("ransac", .dict [("min_distance_threshold", .num (1 / 2))])] = .ok c ∧
    c.threshold = .num (1 / 2) ∧ c.maxZ = .num 20 ∧
    laserOutputs [("detection", .dict [("two_lasers", .bool true)])] = (["laser", "laser_b"], none) :=
  ⟨_, rfl, rfl, rfl, rfl⟩

-- Settings that differ in `max_points_per_bin` and `max_iterations` only give the same calibration.
example (sheet : LaserSettings → Res (Option LaserFit)) :
    laserFromYaml sheet [("stratify", .dict [("max_points_per_bin", .num 7), ("max_z_m", .num 9)])] 300 =
      laserFromYaml sheet [("stratify", .dict [("max_z_m", .num 9)]), ("ransac", .dict [("max_iterations", .num 1)])] 300 :=
  C262_unused sheet _ _ 300 _ _ rfl rfl rfl rfl rfl rfl rfl rfl

-- An empty section is not accepted.
example : ¬ ∃ c, laserConfig [("ransac", .null)] = .ok c := by
  rw [C262_accepted]
  rintro ⟨_, h⟩
  rcases h "ransac" (by simp) with h | ⟨d, h⟩
  · have : (some Y.null : Option Y) = none := h
    simp at this
  · have : some Y.null = some (Y.dict d) := h
    simp at this

end Oplab.Props
