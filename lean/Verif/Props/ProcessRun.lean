import Mathlib.Tactic.Linarith
import Mathlib.Tactic.Ring
import Mathlib.Tactic.NormNum
import Verif.Model.ProcessRun
import Verif.Spec.ProcessRun
import Verif.Lemmas.Seek
import Verif.Lemmas.Digits
import Verif.Props.Time

/-! C168-C175: a run of `auv_nav process` from its settings to its files. -/

namespace Oplab.Props
open Oplab Oplab.Spec

/-! ## C168 settings and the points where a run stops -/

/-- What C168 asks for: with settings that can be read, a run for a mission with two cameras comes to its end and writes its files. -/
def C168_full : Prop := ∀ (d : Node) (s : RunSettings ℚ) (cams : List (List Char)) (l : RunLists),
  readSettings Y.asNum d = .ok s → cams.length = 2 → ∃ out, outputStage s cams l = .ok out

/-- Settings without plots and without any filter. -/
private def bareSettings : Node := [("usbl_filter", .dict [("activate", .bool true), ("max_auv_speed", .num 2), ("sigma_factor", .num 2)]),
  ("csv_output", .dict csvSection)]

/-- Settings with plots, the USBL filter being on or off. -/
private def plotSettings (b : Bool) : Node :=
  [("usbl_filter", .dict [("activate", .bool b), ("max_auv_speed", .num 2), ("sigma_factor", .num 2)]),
  ("particle_filter", .dict [("activate", .bool false), ("dvl_noise_sigma_factor", .num 2), ("imu_noise_sigma_factor", .num 2),
    ("usbl_noise_sigma_factor", .num 1), ("particles_number", .num 300), ("particles_plot_time_interval", .num 600)]),
  ("csv_output", .dict csvSection), ("plot_output", .dict [("activate", .bool true), ("html_plot", .bool true)])]

private def someLists : RunLists := ⟨9, 0, 0, fun _ => 5, fun _ => 4, fun _ => 3, 3, []⟩

private def twoCams : List (List Char) := ["LC".toList, "RC".toList]

/-- C168 fails: without the section `plot_output` the run stops before the csv files are written. -/
theorem C168_sections_false : ¬ C168_full := by
  intro h
  cases hs : readSettings Y.asNum bareSettings with
  | error e =>
    have : (readSettings Y.asNum bareSettings).toOption.isSome = true := by decide +kernel
    rw [hs] at this; simp [Except.toOption] at this
  | ok s =>
    obtain ⟨out, ho⟩ := h _ s twoCams someLists hs rfl
    have : ((readSettings Y.asNum bareSettings).toOption.bind fun s => (outputStage s twoCams someLists).toOption).isSome = false := by
      decide +kernel
    rw [hs] at this
    simp [Except.toOption, ho] at this

/-- C168 fails: the files lost when the USBL filter is switched off and plots are on. -/
theorem C168_filter_off_false :
    ((readSettings Y.asNum (plotSettings true)).toOption.bind fun s => (outputStage s twoCams someLists).toOption.map (·.length)) = some 6 ∧
      ((readSettings Y.asNum (plotSettings false)).toOption.bind fun s => (outputStage s twoCams someLists).toOption.map (·.length)) = none ∧
      (readSettings Y.asNum (plotSettings false)).toOption.isSome = true := by
  decide +kernel

private theorem csvRequests_ok (pf ekf : Bool) (c : CsvFlags) (cams : List (List Char)) (l : RunLists) (h : 2 ≤ cams.length) :
    ∃ r, csvRequests pf ekf c cams l = .ok r := by
  obtain ⟨a, b, t, rfl⟩ : ∃ a b t, cams = a :: b :: t := by
    match cams, h with
    | a :: b :: t, _ => exact ⟨a, b, t, rfl⟩
  have g0 := Seek.pyGet_nat (a :: b :: t) 0 a rfl
  have g1 := Seek.pyGet_nat (a :: b :: t) 1 b rfl
  have e1 : ∃ r, cam1Reqs pf ekf c (a :: b :: t) l.cam1 = .ok r := by
    unfold cam1Reqs; split
    · exact ⟨_, by rw [show (0 : Int) = ((0 : Nat) : Int) from rfl, g0]; rfl⟩
    · exact ⟨_, rfl⟩
  have e2 : ∃ r, cam2Reqs pf ekf c (a :: b :: t) l.cam2 = .ok r := by
    unfold cam2Reqs; split
    · exact ⟨_, by rw [show (1 : Int) = ((1 : Nat) : Int) from rfl, g1]; rfl⟩
    · exact ⟨_, rfl⟩
  obtain ⟨r1, e1⟩ := e1
  obtain ⟨r2, e2⟩ := e2
  simp [csvRequests, e1, e2, bind, Except.bind]

private theorem settings_csv {α : Type} (num : Y → Res α) (d : Node) (s : RunSettings α) (h : readSettings num d = .ok s) :
    (s.csv = true → s.csvFlags.isSome = true) ∧ (s.spp = true → s.ekf = true) ∧
      (s.usblFilter = none ↔ d.lookup "usbl_filter" = none) ∧ (s.pfInterval = none ↔ d.lookup "particle_filter" = none) ∧
      (s.plot = none ↔ d.lookup "plot_output" = none) ∧ (d.lookup "particle_filter" = none → s.pf = false) ∧
      (d.lookup "ekf" = none → s.ekf = false ∧ s.smoother = true ∧ s.matrices = none) ∧ (d.lookup "csv_output" = none → s.csv = false) ∧
      (d.lookup "spp_output" = none → s.spp = false) := by
  simp only [readSettings, bind, Except.bind] at h
  split at h
  · simp at h
  rename_i u hu
  split at h
  · simp at h
  rename_i p hp
  split at h
  · simp at h
  rename_i e he
  split at h
  · simp at h
  rename_i c hc
  split at h
  · simp at h
  rename_i sp hsp
  split at h
  · simp at h
  rename_i g hg
  simp only [Except.ok.injEq] at h
  subst h
  simp only
  have hu' : u = none ↔ d.lookup "usbl_filter" = none := by
    unfold readUsblFilter at hu
    by_cases hx : (d.lookup "usbl_filter").isNone
    · rw [if_pos hx] at hu
      simp only [Except.ok.injEq] at hu
      simp [← hu, Option.isNone_iff_eq_none.1 hx]
    · rw [if_neg hx] at hu
      have : d.lookup "usbl_filter" ≠ none := by simpa using hx
      simp only [bind, Except.bind] at hu
      split at hu <;> try (simp at hu; done)
      split at hu <;> try (simp at hu; done)
      split at hu <;> simp at hu
      simp [← hu, this]
  have hp' : (p.2 = none ↔ d.lookup "particle_filter" = none) ∧ (d.lookup "particle_filter" = none → p.1 = false) := by
    unfold readPf at hp
    by_cases hx : (d.lookup "particle_filter").isNone
    · rw [if_pos hx] at hp
      simp only [Except.ok.injEq] at hp
      simp [← hp, Option.isNone_iff_eq_none.1 hx]
    · rw [if_neg hx] at hp
      have : d.lookup "particle_filter" ≠ none := by simpa using hx
      simp only [bind, Except.bind] at hp
      repeat (split at hp <;> try (simp at hp; done))
      simp only [Except.ok.injEq] at hp
      simp [← hp, this]
  have hg' : g = none ↔ d.lookup "plot_output" = none := by
    unfold readPlot at hg
    by_cases hx : (d.lookup "plot_output").isNone
    · rw [if_pos hx] at hg
      simp only [Except.ok.injEq] at hg
      simp [← hg, Option.isNone_iff_eq_none.1 hx]
    · rw [if_neg hx] at hg
      have : d.lookup "plot_output" ≠ none := by simpa using hx
      simp only [bind, Except.bind] at hg
      repeat (split at hg <;> try (simp at hg; done))
      simp only [Except.ok.injEq] at hg
      simp [← hg, this]
  have hc' : (c.1 = true → c.2.isSome = true) ∧ (d.lookup "csv_output" = none → c.1 = false) := by
    unfold readCsv at hc
    by_cases hx : (d.lookup "csv_output").isNone
    · rw [if_pos hx] at hc
      simp only [Except.ok.injEq] at hc
      simp [← hc]
    · rw [if_neg hx] at hc
      have : d.lookup "csv_output" ≠ none := by simpa using hx
      simp only [bind, Except.bind] at hc
      repeat (split at hc <;> try (simp at hc; done))
      simp only [Except.ok.injEq] at hc
      simp [← hc, this]
  have he' : d.lookup "ekf" = none → e.1 = false ∧ e.2.1 = true ∧ e.2.2.2 = none := by
    intro hx
    unfold readEkf at he
    rw [if_pos (by simp [hx])] at he
    simp only [Except.ok.injEq] at he
    simp [← he]
  have hsp' : (sp.1 = true → e.1 = true) ∧ (d.lookup "spp_output" = none → sp.1 = false) := by
    unfold readSpp at hsp
    by_cases hx : (d.lookup "spp_output").isNone
    · rw [if_pos hx] at hsp
      simp only [Except.ok.injEq] at hsp
      simp [← hsp]
    · rw [if_neg hx] at hsp
      have : d.lookup "spp_output" ≠ none := by simpa using hx
      simp only [bind, Except.bind] at hsp
      repeat (split at hsp <;> try (simp at hsp; done))
      simp only [Except.ok.injEq] at hsp
      simp [← hsp, this]
  exact ⟨hc'.1, hsp'.1, hu', hp'.1, hg', hp'.2, he', hc'.2, hsp'.2⟩

/-- C168 (partial): a run whose settings could be read comes to its end exactly when the sections `usbl_filter` and `plot_output` are there, and, if
interactive plots are on, also the section `particle_filter`, with the USBL filter on. Missing: all other settings. -/
theorem C168_stops_iff_partial {α : Type} (num : Y → Res α) (d : Node) (s : RunSettings α) (cams : List (List Char)) (l : RunLists)
    (h : readSettings num d = .ok s) (hc : 2 ≤ cams.length) :
    (∃ out, outputStage s cams l = .ok out) ↔
      d.lookup "usbl_filter" ≠ none ∧ d.lookup "plot_output" ≠ none ∧
        (s.plot = some (true, true) → d.lookup "particle_filter" ≠ none ∧ s.usblFilter = some true) := by
  obtain ⟨a1, -, a3, a4, a5, -⟩ := settings_csv num d s h
  rw [ne_eq, ne_eq, ne_eq, ← a3, ← a4, ← a5]
  simp only [outputStage, usblStage, plotStage, bind, Except.bind]
  cases hu : s.usblFilter with
  | none => simp
  | some f =>
    cases hp : s.plot with
    | none => simp
    | some ah =>
      obtain ⟨act, html⟩ := ah
      have hend : ∃ out, csvStage s cams l = .ok out := by
        unfold csvStage
        by_cases hcsv : s.csv = true
        · rw [if_pos hcsv]
          cases hf : s.csvFlags with
          | none => have := a1 hcsv; rw [hf] at this; simp at this
          | some c =>
            obtain ⟨r, hr⟩ := csvRequests_ok s.pf s.ekf c cams l hc
            exact ⟨r.filter FileReq.written, by simp [hr, Except.map]⟩
        · rw [if_neg hcsv]; exact ⟨[], rfl⟩
      cases act <;> cases html <;> cases hi : s.pfInterval <;> cases f <;> simp <;> exact hend

/-- C168: an absent section switches the feature off; defaults of the EKF; SLAM++ needs the EKF. -/
theorem C168_absent_off {α : Type} (num : Y → Res α) (d : Node) (s : RunSettings α) (h : readSettings num d = .ok s) :
    (d.lookup "particle_filter" = none → s.pf = false) ∧ (d.lookup "ekf" = none → s.ekf = false) ∧
      (d.lookup "csv_output" = none → s.csv = false) ∧ (d.lookup "spp_output" = none → s.spp = false) ∧ (s.spp = true → s.ekf = true) := by
  obtain ⟨-, a2, -, -, -, a6, a7, a8, a9⟩ := settings_csv num d s h
  exact ⟨a6, fun h => (a7 h).1, a8, a9, a2⟩

example : (readSettings Y.asNum (plotSettings true)).toOption.isSome = true ∧ ((plotSettings true).lookup "ekf").isNone = true := by decide +kernel

/-! ## C169 models of uncertainties -/

/-- What C169 asks for: an uncertainty for which nothing is said is the one of the sensor. -/
def C169_full : Prop := ∀ (std : Option Node) (key old : String), (∀ n, std = some n → n.lookup key = none ∧ n.lookup old = none) →
  stdEntry std key (some old) = .ok [("model", .str "sensor")]

/-- C169 fails: a section `std` without one of the quantities stops the run. -/
theorem C169_missing_false : ¬ C169_full := by
  intro h
  have := h (some []) "speed" "dvl" (by intro n hn; cases hn; exact ⟨rfl, rfl⟩)
  simp [stdEntry, Node.req, Except.map, bind, Except.bind] at this

/-- C169 (partial): without a section `std`, and always for the orientation, the default is the uncertainty of the sensor. Missing: sections
without an entry for a velocity, depth or position. -/
theorem C169_default_partial (key : String) (old : Option String) (n : Node) :
    stdEntry none key old = .ok [("model", .str "sensor")] ∧
      (n.lookup key = none → stdEntry (some n) key none = .ok [("model", .str "sensor")]) := by
  refine ⟨rfl, fun h => ?_⟩
  simp [stdEntry, h, bind, Except.bind]

/-- C169: what is said is used, under the present name or else under the old one; only a missing model is filled in. -/
theorem C169_given (n : Node) (key old : String) (v : Node)
    (h : n.lookup key = some (.dict v) ∨ n.lookup key = none ∧ n.lookup old = some (.dict v)) :
    ∃ r, stdEntry (some n) key (some old) = .ok r ∧ (∀ k x, v.lookup k = some x → r.lookup k = some x) ∧
      (v.lookup "model" = none → r.lookup "model" = some (.str "sensor")) := by
  have e : stdEntry (some n) key (some old) = .ok (if (v.lookup "model").isSome then v else v ++ [("model", .str "sensor")]) := by
    rcases h with h | ⟨h1, h2⟩
    · simp [stdEntry, h, bind, Except.bind, Y.asDict]
    · simp [stdEntry, h1, h2, Node.req, Except.map, bind, Except.bind, Y.asDict]
  refine ⟨_, e, fun k x hk => ?_, fun hm => ?_⟩
  · split
    · exact hk
    · rw [List.lookup_append, hk]; rfl
  · rw [if_neg (by simp [hm]), List.lookup_append, hm]
    simp

example : (stdEntry (some [("usbl", .dict [("offset", .num 2)])]) "position_xy" (some "usbl")).toOption.map (·.length) = some 2 := by
  decide +kernel

/-! ## C170 matrices of the EKF -/

private theorem reshape_entry {α : Type} (n : Nat) (l : List α) (m : List (List α)) (h : reshapeSquare n l = .ok m) (i j : Nat) (hi : i < n)
    (hj : j < n) : (m[i]?.bind fun r => r[j]?) = l[n * i + j]? ∧ (m[i]?.map List.length) = some n := by
  unfold reshapeSquare at h
  by_cases hl : l.length = n * n
  · rw [if_pos hl] at h
    simp only [Except.ok.injEq] at h
    subst h
    have hb : n * i + n ≤ n * n := by
      have := Nat.mul_le_mul_left n (Nat.succ_le_of_lt hi)
      rw [Nat.mul_succ] at this
      exact this
    constructor
    · simp [hi, hj]
    · simp only [List.getElem?_map, List.getElem?_range hi, Option.map_some, List.length_take, List.length_drop, Option.some.injEq]
      omega
  · rw [if_neg hl] at h; simp at h

private theorem crop_entry {α : Type} (k n : Nat) (m : List (List α)) (i j : Nat) (hi : i < k) (hj : j < k) (hm : m[i]?.map List.length = some n) :
    ((cropSquare k m)[i]?.bind fun r => r[j]?) = (m[i]?.bind fun r => r[j]?) ∧ ((cropSquare k m)[i]?.map List.length) = some (min k n) := by
  unfold cropSquare
  cases hr : m[i]? with
  | none => rw [hr] at hm; simp at hm
  | some r =>
    rw [hr] at hm
    simp only [Option.map_some, Option.some.injEq] at hm
    simp [hi, hj, hr, hm]

/-- C170: the matrices are accepted exactly when both have 144 or both have 225 entries. -/
theorem C170_accepted_iff {α : Type} (noise initial : List α) :
    (∃ m, ekfMatrices noise initial = .ok m) ↔
      noise.length = 144 ∧ initial.length = 144 ∨ noise.length = 225 ∧ initial.length = 225 := by
  unfold ekfMatrices reshapeSquare
  by_cases h1 : noise.length = 144
  · simp only [h1, bind, Except.bind]
    by_cases h2 : initial.length = 144 <;> simp [h2]
  · by_cases h3 : noise.length = 225
    · simp only [h3, bind, Except.bind]
      by_cases h2 : initial.length = 225 <;> simp [h2]
    · simp [h1, h3, bind, Except.bind]

/-- C170: the entries of twelve rows of twelve are used in the order in which they are written; of fifteen rows of fifteen the first twelve of the
first twelve. -/
theorem C170_entries {α : Type} (noise initial : List α) (a b : List (List α)) (h : ekfMatrices noise initial = .ok (a, b)) (i j : Nat)
    (hi : i < 12) (hj : j < 12) :
    ∃ n, n * n = noise.length ∧ (n = 12 ∨ n = 15) ∧ (a[i]?.bind fun r => r[j]?) = noise[n * i + j]? ∧
      (b[i]?.bind fun r => r[j]?) = initial[n * i + j]? ∧ a[i]?.map List.length = some 12 ∧ b[i]?.map List.length = some 12 := by
  unfold ekfMatrices at h
  by_cases hn : noise.length ≠ 144
  · rw [if_pos hn] at h
    cases ha : reshapeSquare 15 noise with
    | error e => simp [ha, bind, Except.bind] at h
    | ok ma =>
      cases hb : reshapeSquare 15 initial with
      | error e => simp [ha, hb, bind, Except.bind] at h
      | ok mb =>
        simp only [ha, hb, bind, Except.bind, Except.ok.injEq, Prod.mk.injEq] at h
        obtain ⟨rfl, rfl⟩ := h
        have hl : noise.length = 15 * 15 := by
          by_contra hc
          simp [reshapeSquare, hc] at ha
        obtain ⟨e1, l1⟩ := reshape_entry 15 noise ma ha i j (by omega) (by omega)
        obtain ⟨e2, l2⟩ := reshape_entry 15 initial mb hb i j (by omega) (by omega)
        obtain ⟨c1, d1⟩ := crop_entry 12 15 ma i j hi hj l1
        obtain ⟨c2, d2⟩ := crop_entry 12 15 mb i j hi hj l2
        exact ⟨15, hl.symm, Or.inr rfl, c1.trans e1, c2.trans e2, d1, d2⟩
  · rw [if_neg hn] at h
    cases ha : reshapeSquare 12 noise with
    | error e => simp [ha, bind, Except.bind] at h
    | ok ma =>
      cases hb : reshapeSquare 12 initial with
      | error e => simp [ha, hb, bind, Except.bind] at h
      | ok mb =>
        simp only [ha, hb, bind, Except.bind, Except.ok.injEq, Prod.mk.injEq] at h
        obtain ⟨rfl, rfl⟩ := h
        obtain ⟨e1, l1⟩ := reshape_entry 12 noise ma ha i j hi hj
        obtain ⟨e2, l2⟩ := reshape_entry 12 initial mb hb i j hi hj
        exact ⟨12, by omega, Or.inl rfl, e1, e2, l1, l2⟩

example : ((ekfMatrices (List.range 225) (List.range 225)).toOption.map fun m => (m.1[3]?.bind fun r => r[5]?)) = some (some 50) := by
  decide +kernel

/-! ## C171 third camera -/

/-- C171: images of the laser are taken by the third camera of the vehicle; for BioCam by the first camera that records the laser; a BioCam mission in
which neither of two cameras does is refused. -/
theorem C171_position {α : Type} (format : String) (c1 c2 c3 : α) (l1 l2 : Option Bool) (rest : List (Option Bool)) :
    (format ≠ "biocam" → camera3Position format c1 c2 c3 (l1 :: l2 :: rest) = .ok c3) ∧
      (format = "biocam" → l1 = some true → camera3Position format c1 c2 c3 (l1 :: l2 :: rest) = .ok c1) ∧
      (format = "biocam" → l1 ≠ some true → l2 = some true → camera3Position format c1 c2 c3 (l1 :: l2 :: rest) = .ok c2) ∧
      (format = "biocam" → l1 ≠ some true → l2 ≠ some true → camera3Position format c1 c2 c3 (l1 :: l2 :: rest) = .error .quit) := by
  have g0 : pyGet (l1 :: l2 :: rest) 0 = .ok l1 := Seek.pyGet_nat (l1 :: l2 :: rest) 0 l1 rfl
  have g1 : pyGet (l1 :: l2 :: rest) 1 = .ok l2 := Seek.pyGet_nat (l1 :: l2 :: rest) 1 l2 rfl
  refine ⟨fun h => by simp [camera3Position, h], fun h h1 => ?_, fun h h1 h2 => ?_, fun h h1 h2 => ?_⟩
  · subst h1; simp [camera3Position, h, g0, bind, Except.bind]
  · subst h2; simp [camera3Position, h, g0, g1, h1, bind, Except.bind]
  · simp [camera3Position, h, g0, g1, h1, h2, bind, Except.bind]

example : (camera3Position "biocam" 1 2 3 [none, some true]).toOption = some 2 := by decide +kernel

/-! ## C172 time window -/

/-- C172: without dates, all records are inside the window (the entries after the origin being in order of time, as `auv_nav parse` leaves
them). -/
theorem C172_default_all (origin : ℚ) (times : List ℚ) (hs : times.Pairwise (· ≤ ·)) (hne : times ≠ []) :
    ∃ a b, timeWindow (origin :: times) [] [] = .ok (a, b) ∧ (∀ t ∈ times, a ≤ t ∧ t ≤ b) ∧ a ∈ times ∧ b ∈ times := by
  obtain ⟨x, rest, rfl⟩ := List.exists_cons_of_ne_nil hne
  have g0 : pyGet (origin :: x :: rest) 1 = .ok x := Seek.pyGet_nat (origin :: x :: rest) 1 x rfl
  have hl : (origin :: x :: rest).getLast? = some ((x :: rest).getLast (by simp)) := by
    rw [List.getLast?_cons_cons, List.getLast?_eq_some_getLast (by simp)]
  have g1 : pyGet (origin :: x :: rest) (-1) = .ok ((x :: rest).getLast (by simp)) := Seek.pyGet_last _ _ hl
  refine ⟨x, (x :: rest).getLast (by simp), by simp [timeWindow, g0, g1, bind, Except.bind], fun t ht => ⟨?_, ?_⟩, by simp, List.getLast_mem _⟩
  · rcases List.mem_cons.1 ht with rfl | h
    · exact le_rfl
    · exact (List.pairwise_cons.1 hs).1 t h
  · have := List.dropLast_append_getLast (l := x :: rest) (by simp)
    rw [← this] at ht hs
    rcases List.mem_append.1 ht with h | h
    · exact (List.pairwise_append.1 hs).2.2 t h _ (by simp)
    · simp only [List.mem_singleton] at h; exact le_of_eq h

/-- C172: a file without records is an error, not an empty window. -/
theorem C172_no_records (origin : ℚ) (finish : List Char) : timeWindow [origin] [] finish = .error .indexError := by
  have : pyGet [origin] 1 = .error .indexError := by simp [pyGet]
  simp [timeWindow, this, bind, Except.bind]

/-- C172: dates given are used, as universal time. -/
theorem C172_given (times : List ℚ) (a b : Nat) (ha : a < 253402300800) (hb : b < 253402300800) :
    timeWindow times (epochToDatetime a) (epochToDatetime b) = .ok ((a : ℚ), (b : ℚ)) := by
  have hne : ∀ e, epochToDatetime e ≠ [] := by
    intro e h
    have := congrArg List.length h
    simp [epochToDatetime, padDigits_length] at this
  simp [timeWindow, hne, C10_roundtrip a ha, C10_roundtrip b hb, bind, Except.bind]

/-! ## C173 folder of the results -/

/-- C173: the results of an earlier run are not touched unless overwriting, or the computation of relative uncertainties, was asked for. -/
theorem C173_kept (isDir force relative : Bool) :
    (renavGuard isDir force relative = .ok () ↔ (isDir = true → force = true ∨ relative = true)) ∧
      (isDir = true → force = false → relative = false → renavGuard isDir force relative = .error .quit) := by
  cases isDir <;> cases force <;> cases relative <;> simp [renavGuard]

/-- C173: runs for different dates have different folders. -/
theorem C173_folders_distinct (s f s' f' : List Char) (h1 : s.length = 14) (h2 : f.length = 14) (h3 : s'.length = 14) (h4 : f'.length = 14)
    (h : renavName s f = renavName s' f') : s = s' ∧ f = f' := by
  have key : ∀ l : List Char, l.length = 14 → l = slice l 0 8 ++ slice l 8 14 ∧ (slice l 0 8).length = 8 ∧ (slice l 8 14).length = 6 := by
    intro l hl
    refine ⟨?_, by simp [slice, hl], by simp [slice, hl]⟩
    simp only [slice, List.drop_zero]
    rw [List.take_of_length_le (i := 14) (by omega), List.take_append_drop]
  obtain ⟨k1, a1, b1⟩ := key s h1
  obtain ⟨k2, a2, b2⟩ := key f h2
  obtain ⟨k3, a3, b3⟩ := key s' h3
  obtain ⟨k4, a4, b4⟩ := key f' h4
  simp only [renavName, List.append_assoc] at h
  have e1 := List.append_cancel_left h
  obtain ⟨p1, e2⟩ := List.append_inj e1 (by rw [a1, a3])
  have e3 := List.append_cancel_left e2
  obtain ⟨p2, e4⟩ := List.append_inj e3 (by rw [b1, b3])
  have e5 := List.append_cancel_left e4
  obtain ⟨p3, e6⟩ := List.append_inj e5 (by rw [a2, a4])
  have p4 := List.append_cancel_left e6
  exact ⟨by rw [k1, k3, p1, p2], by rw [k2, k4, p3, p4]⟩

example : renavName "20200601120000".toList "20200601123059".toList = "json_renav_20200601_120000_20200601_123059".toList := by decide +kernel

/-! ## C174 files -/

/-- What C174 asks for: every camera with images gets a file of each solution that is switched on. -/
def C174_full : Prop := ∀ (pf ekf : Bool) (cams : List (List Char)) (l : RunLists), cams.length = 3 → (0 < l.cam1 .dr) → (0 < l.cam1 .pf) → (0 < l.cam1 .ekf) →
  ∃ r, csvRequests pf ekf allCsv cams l = .ok r ∧ ∃ q ∈ r, q.written = true ∧ q.name = Estimate.tag .dr ++ cams.headD []

/-- C174 fails: a camera with a single image gets no file. -/
theorem C174_single_image_false : ¬ C174_full := by
  intro h
  obtain ⟨r, hr, q, hq, hw, hn⟩ := h false false ["A".toList, "B".toList, "C".toList] ⟨9, 0, 0, fun _ => 1, fun _ => 4, fun _ => 3, 3, []⟩ rfl
    (by decide) (by decide) (by decide)
  have : ((csvRequests false false allCsv ["A".toList, "B".toList, "C".toList] ⟨9, 0, 0, fun _ => 1, fun _ => 4, fun _ => 3, 3, []⟩).toOption.map
      fun r => r.any fun q => q.written && decide (q.name = Estimate.tag .dr ++ "A".toList)) = some false := by decide +kernel
  rw [hr] at this
  simp only [Except.toOption, Option.map_some, Option.some.injEq, List.any_eq_false] at this
  have := this q hq
  rw [hw, hn] at this
  revert this
  decide +kernel

private theorem camera_mem (pf ekf : Bool) (name : List Char) (a b c : Y) (n : Estimate → Nat) :
    (⟨.dr, Estimate.tag .dr ++ name, a, n .dr, false⟩ ∈ cameraReqs pf ekf name a b c n) ∧
      (pf = true → ⟨.pf, Estimate.tag .pf ++ name, b, n .pf, false⟩ ∈ cameraReqs pf ekf name a b c n) ∧
      (ekf = true → ⟨.ekf, Estimate.tag .ekf ++ name, c, n .ekf, false⟩ ∈ cameraReqs pf ekf name a b c n) := by
  refine ⟨?_, ?_, ?_⟩
  · simp [cameraReqs]
  · rintro rfl; simp [cameraReqs]
  · rintro rfl; cases pf <;> simp [cameraReqs]

/-- C174 (partial): with all outputs on, each camera with at least two images gets a file of dead reckoning, and of each filter that is on and gave at
least two poses. Missing: a single image. -/
theorem C174_camera_files_partial (pf ekf : Bool) (c1 c2 : List Char) (more : List (List Char)) (l : RunLists) (r : List FileReq)
    (h : csvRequests pf ekf allCsv (c1 :: c2 :: more) l = .ok r) :
    ∀ (e : Estimate), (e = .pf → pf = true) → (e = .ekf → ekf = true) →
      (1 < l.cam1 .dr → 1 < l.cam1 e → ∃ q ∈ r, fileOf q = (e, e.tag ++ c1, false) ∧ q.written = true) ∧
      (1 < l.cam2 .dr → 1 < l.cam2 e → ∃ q ∈ r, fileOf q = (e, e.tag ++ c2, false) ∧ q.written = true) ∧
      (1 < l.cam3 .dr → 1 < l.cam3 e → ∃ q ∈ r, fileOf q = (e, e.tag ++ more.headD c2 ++ laserSuffix, false) ∧ q.written = true) := by
  intro e he1 he2
  have g0 : pyGet (c1 :: c2 :: more) 0 = .ok c1 := Seek.pyGet_nat (c1 :: c2 :: more) 0 c1 rfl
  have g1 : pyGet (c1 :: c2 :: more) 1 = .ok c2 := Seek.pyGet_nat (c1 :: c2 :: more) 1 c2 rfl
  have find : ∀ (name : List Char) (n : Estimate → Nat), 1 < n e →
      ∃ q ∈ cameraReqs pf ekf name (.bool true) (.bool true) (.bool true) n, fileOf q = (e, e.tag ++ name, false) ∧ q.written = true := by
    intro name n hn
    obtain ⟨m1, m2, m3⟩ := camera_mem pf ekf name (.bool true) (.bool true) (.bool true) n
    cases e with
    | dr => exact ⟨_, m1, rfl, by simp [FileReq.written, Y.isTrue, hn]⟩
    | pf => exact ⟨_, m2 (he1 rfl), rfl, by simp [FileReq.written, Y.isTrue, hn]⟩
    | ekf => exact ⟨_, m3 (he2 rfl), rfl, by simp [FileReq.written, Y.isTrue, hn]⟩
  have hr : ∃ a b, cam1Reqs pf ekf allCsv (c1 :: c2 :: more) l.cam1 = .ok a ∧ cam2Reqs pf ekf allCsv (c1 :: c2 :: more) l.cam2 = .ok b ∧
      r = vehicleReqs allCsv l ++ payloadReqs allCsv l.payloads ++ a ++ b ++ cam3Reqs pf ekf allCsv (c1 :: c2 :: more) l.cam3 l.atDvl ++
        sidescanReqs pf ekf allCsv l := by
    simp only [csvRequests, bind, Except.bind] at h
    split at h
    · simp at h
    rename_i a ha
    split at h
    · simp at h
    rename_i b hb
    exact ⟨a, b, ha, hb, (Except.ok.inj h).symm⟩
  obtain ⟨a, b, ha, hb, rfl⟩ := hr
  refine ⟨fun h1 h2 => ?_, fun h1 h2 => ?_, fun h1 h2 => ?_⟩
  · obtain ⟨q, hq, hf⟩ := find c1 l.cam1 h2
    rw [cam1Reqs, if_pos (by omega), g0] at ha
    simp only [bind, Except.bind, Except.ok.injEq] at ha
    refine ⟨q, ?_, hf⟩
    rw [← ha]
    simp only [List.mem_append]
    exact Or.inl (Or.inl (Or.inl (Or.inr hq)))
  · obtain ⟨q, hq, hf⟩ := find c2 l.cam2 h2
    rw [cam2Reqs, if_pos (by omega), g1] at hb
    simp only [bind, Except.bind, Except.ok.injEq] at hb
    refine ⟨q, ?_, hf⟩
    rw [← hb]
    simp only [List.mem_append]
    exact Or.inl (Or.inl (Or.inr hq))
  · obtain ⟨q, hq, hf⟩ := find (more.headD c2 ++ laserSuffix) l.cam3 h2
    refine ⟨q, ?_, by rw [hf.1, List.append_assoc], hf.2⟩
    simp only [List.mem_append]
    refine Or.inl (Or.inr ?_)
    rw [cam3Reqs, if_pos (by omega)]
    cases more with
    | nil => simp; exact Or.inl hq
    | cons c3 more => simp; exact Or.inl hq

/-- C174: with a flag off, the file is not written; nor are files of solutions without entries. -/
theorem C174_not_written (r : FileReq) (h : r.flag = .bool false ∨ r.count = 0) : r.written = false := by
  rcases h with h | h <;> simp [FileReq.written, h, Y.isTrue, Y.truthy]

/-- What C174 also asks for: no file is written by two threads. -/
def C174_distinct_full : Prop := ∀ (pf ekf : Bool) (cams : List (List Char)) (l : RunLists) (r : List FileReq),
  csvRequests pf ekf allCsv cams l = .ok r → cams.Nodup → (l.payloads.map Prod.fst).Nodup → (r.map fileOf).Nodup

/-- C174 fails: the poses of a camera named `dvl` go into the file of the DVL. -/
theorem C174_distinct_false : ¬ C174_distinct_full := by
  intro h
  obtain ⟨r, hr⟩ := csvRequests_ok false false allCsv ["dvl".toList, "B".toList] ⟨9, 0, 0, fun _ => 2, fun _ => 4, fun _ => 3, 3, []⟩ (by decide)
  have h1 := h _ _ _ _ r hr (by decide +kernel) (by decide +kernel)
  have : ((csvRequests false false allCsv ["dvl".toList, "B".toList] ⟨9, 0, 0, fun _ => 2, fun _ => 4, fun _ => 3, 3, []⟩).toOption.map
      fun r => decide (r.map fileOf).Nodup) = some false := by decide +kernel
  rw [hr] at this
  simp [Except.toOption] at this
  exact this h1

private theorem camera_sub (pf ekf : Bool) (name : List Char) (a b c : Y) (n : Estimate → Nat) :
    ((cameraReqs pf ekf name a b c n).map fileOf).Sublist
      [(.dr, Estimate.tag .dr ++ name, false), (.pf, Estimate.tag .pf ++ name, false), (.ekf, Estimate.tag .ekf ++ name, false)] := by
  cases pf <;> cases ekf <;> simp [cameraReqs, fileOf]

/-- The third camera of the mission, or the second one if there are two. -/
private theorem cam3_sub (pf ekf : Bool) (c : CsvFlags) (c1 c2 : List Char) (more : List (List Char)) (n : Estimate → Nat) (d : Nat) :
    ((cam3Reqs pf ekf c (c1 :: c2 :: more) n d).map fileOf).Sublist
      [(.dr, Estimate.tag .dr ++ (more.headD c2 ++ laserSuffix), false), (.pf, Estimate.tag .pf ++ (more.headD c2 ++ laserSuffix), false),
        (.ekf, Estimate.tag .ekf ++ (more.headD c2 ++ laserSuffix), false), (.ekf, Estimate.tag .ekf ++ (more.headD c2 ++ atDvlSuffix), false)] := by
  unfold cam3Reqs
  split
  · have : (if (c1 :: c2 :: more).length > 2 then (c1 :: c2 :: more)[2]? else if (c1 :: c2 :: more).length = 2 then (c1 :: c2 :: more)[1]? else none) =
        some (more.headD c2) := by cases more <;> simp
    rw [this]
    simp only [List.map_append]
    refine List.Sublist.append (l₂ := [_, _, _]) (camera_sub pf ekf _ _ _ _ _) ?_
    cases ekf <;> simp [fileOf]
  · simp

private theorem payload_inj (x y : List Char) (h1 : (payloadFolder x).1 = (payloadFolder y).1) (h2 : (payloadFolder x).2 = (payloadFolder y).2) : x = y := by
  unfold payloadFolder at h1 h2
  generalize "_dr".toList = d at h1 h2
  generalize hasPf x = a at h1 h2
  generalize hasPf y = b at h1 h2
  generalize hasEkf x = e at h1 h2
  generalize hasEkf y = f at h1 h2
  cases a <;> cases b <;> cases e <;> cases f <;> first | (simp at h1; done) | (simp at h2; exact h2)

private theorem other_nodup (c1 c2 u v : List Char) (hn : [c1, c2, u, v, centreName, dvlName].Nodup) :
    ([(Estimate.dr, Estimate.tag .dr ++ centreName, false), (.dr, Estimate.tag .dr ++ dvlName, false), (.pf, Estimate.tag .pf ++ centreName, false),
        (.pf, Estimate.tag .pf ++ dvlName, false), (.ekf, Estimate.tag .ekf ++ centreName, false)] ++
      ([(Estimate.dr, Estimate.tag .dr ++ c1, false), (.pf, Estimate.tag .pf ++ c1, false), (.ekf, Estimate.tag .ekf ++ c1, false)] ++
      ([(Estimate.dr, Estimate.tag .dr ++ c2, false), (.pf, Estimate.tag .pf ++ c2, false), (.ekf, Estimate.tag .ekf ++ c2, false)] ++
      ([(Estimate.dr, Estimate.tag .dr ++ u, false), (.pf, Estimate.tag .pf ++ u, false), (.ekf, Estimate.tag .ekf ++ u, false), (.ekf, Estimate.tag .ekf ++ v, false)] ++
      [(Estimate.dr, Estimate.tag .dr ++ sssName, true), (.pf, Estimate.tag .pf ++ sssName, true), (.ekf, Estimate.tag .ekf ++ sssName, true)])))).Nodup := by
  simp only [List.nodup_cons, List.mem_cons, List.not_mem_nil, or_false, not_or, List.nodup_nil, not_false_eq_true, and_true] at hn
  obtain ⟨⟨n1, n2, n3, n4, n5⟩, ⟨n6, n7, n8, n9⟩, ⟨n10, n11, n12⟩, ⟨n13, n14⟩, n15⟩ := hn
  simp [n1, n2, n6, n7, n10, n15, Ne.symm n4, Ne.symm n5, Ne.symm n8, Ne.symm n9, Ne.symm n11, Ne.symm n12, Ne.symm n13, n3]

/-- C174 (partial): no file is written by two threads if the names of the cameras are different from each other, with or without `_laser` and
`_laser_at_dvl`, and from `centre` and `dvl`, and no name of a payload begins with `auv`. Missing: other names. (Files of
covariances, with `_cov` added to these names, are not looked at.) -/
theorem C174_distinct_partial (pf ekf : Bool) (c : CsvFlags) (c1 c2 : List Char) (more : List (List Char)) (l : RunLists) (r : List FileReq)
    (h : csvRequests pf ekf c (c1 :: c2 :: more) l = .ok r)
    (hn : [c1, c2, more.headD c2 ++ laserSuffix, more.headD c2 ++ atDvlSuffix, centreName, dvlName].Nodup)
    (hk : (l.payloads.map Prod.fst).Nodup) (hp : ∀ p ∈ l.payloads, p.1.take 3 ≠ ['a', 'u', 'v']) : (r.map fileOf).Nodup := by
  have g0 : pyGet (c1 :: c2 :: more) 0 = .ok c1 := Seek.pyGet_nat (c1 :: c2 :: more) 0 c1 rfl
  have g1 : pyGet (c1 :: c2 :: more) 1 = .ok c2 := Seek.pyGet_nat (c1 :: c2 :: more) 1 c2 rfl
  simp only [csvRequests, bind, Except.bind] at h
  split at h
  · simp at h
  rename_i a ha
  split at h
  · simp at h
  rename_i b hb
  have hr := (Except.ok.inj h).symm
  have sa : (a.map fileOf).Sublist [(.dr, Estimate.tag .dr ++ c1, false), (.pf, Estimate.tag .pf ++ c1, false), (.ekf, Estimate.tag .ekf ++ c1, false)] := by
    unfold cam1Reqs at ha
    split at ha
    · simp only [g0, bind, Except.bind, Except.ok.injEq] at ha
      rw [← ha]; exact camera_sub pf ekf _ _ _ _ _
    · simp only [Except.ok.injEq] at ha; rw [← ha]; simp
  have sb : (b.map fileOf).Sublist [(.dr, Estimate.tag .dr ++ c2, false), (.pf, Estimate.tag .pf ++ c2, false), (.ekf, Estimate.tag .ekf ++ c2, false)] := by
    unfold cam2Reqs at hb
    split at hb
    · simp only [g1, bind, Except.bind, Except.ok.injEq] at hb
      rw [← hb]; exact camera_sub pf ekf _ _ _ _ _
    · simp only [Except.ok.injEq] at hb; rw [← hb]; simp
  have sc := cam3_sub pf ekf c c1 c2 more l.cam3 l.atDvl
  have ss : ((sidescanReqs pf ekf c l).map fileOf).Sublist
      [(.dr, Estimate.tag .dr ++ sssName, true), (.pf, Estimate.tag .pf ++ sssName, true), (.ekf, Estimate.tag .ekf ++ sssName, true)] := by
    cases pf <;> cases ekf <;> simp [sidescanReqs, fileOf]
  have hother : ((vehicleReqs c l).map fileOf ++ (a.map fileOf ++ (b.map fileOf ++ ((cam3Reqs pf ekf c (c1 :: c2 :: more) l.cam3 l.atDvl).map fileOf ++
      (sidescanReqs pf ekf c l).map fileOf)))).Sublist
      ([(.dr, Estimate.tag .dr ++ centreName, false), (.dr, Estimate.tag .dr ++ dvlName, false), (.pf, Estimate.tag .pf ++ centreName, false),
        (.pf, Estimate.tag .pf ++ dvlName, false), (.ekf, Estimate.tag .ekf ++ centreName, false)] ++ ([_, _, _] ++ ([_, _, _] ++ ([_, _, _, _] ++ [_, _, _])))) :=
    List.Sublist.append (by simp [vehicleReqs, fileOf]) (sa.append (sb.append (sc.append ss)))
  have htag : ∀ x ∈ ((vehicleReqs c l).map fileOf ++ (a.map fileOf ++ (b.map fileOf ++ ((cam3Reqs pf ekf c (c1 :: c2 :: more) l.cam3 l.atDvl).map fileOf ++
      (sidescanReqs pf ekf c l).map fileOf)))), x.2.1.take 3 = ['a', 'u', 'v'] := by
    intro x hx
    have := hother.subset hx
    simp only [List.cons_append, List.nil_append, List.mem_cons, List.not_mem_nil, or_false] at this
    rcases this with h | h | h | h | h | h | h | h | h | h | h | h | h | h | h | h | h | h <;> (rw [h]; rfl)
  have hotherN := List.Nodup.sublist hother (other_nodup c1 c2 _ _ hn)
  have hfile : (payloadReqs c l.payloads).map fileOf = (l.payloads.map Prod.fst).map fun k => ((payloadFolder k).1, (payloadFolder k).2, false) := by
    simp only [payloadReqs, List.map_map]
    refine List.map_congr_left fun p _ => ?_
    simp only [Function.comp]
    split <;> rename_i n he <;> simp [fileOf, he]
  have hpay : ((payloadReqs c l.payloads).map fileOf).Nodup := by
    rw [hfile]
    refine List.Nodup.map ?_ hk
    intro x y hxy
    simp only [Prod.mk.injEq, and_true] at hxy
    exact payload_inj x y hxy.1 hxy.2
  have hdis : ∀ x ∈ (payloadReqs c l.payloads).map fileOf, x.2.1.take 3 ≠ ['a', 'u', 'v'] := by
    intro x hx
    rw [hfile] at hx
    simp only [List.mem_map] at hx
    obtain ⟨k, ⟨p, hpm, rfl⟩, rfl⟩ := hx
    have hk := hp p hpm
    simp only
    generalize p.1 = k at hk
    unfold payloadFolder
    have hd : "_dr".toList = ['_', 'd', 'r'] := by decide +kernel
    rw [hd]
    split
    · exact hk
    · split
      · exact hk
      · match k, hk with
        | [], _ => simp
        | [a], _ => simp
        | [a, b], _ => simp
        | a :: b :: c :: rest, hk => simpa using hk
  rw [hr]
  simp only [List.map_append, List.append_assoc]
  rw [← List.append_assoc, (List.perm_append_comm.append_right _).nodup_iff, List.append_assoc]
  refine List.nodup_append.2 ⟨hpay, hotherN, fun x hx y hy e => ?_⟩
  subst e
  exact hdis x hx (htag x hy)

example : ["LC".toList, "RC".toList, "LM".toList ++ laserSuffix, "LM".toList ++ atDvlSuffix, centreName, dvlName].Nodup ∧
    (csvRequests true true allCsv ["LC".toList, "RC".toList, "LM".toList] ⟨9, 5, 5, fun _ => 5, fun _ => 4, fun _ => 3, 3, [("ctd".toList, 7)]⟩).toOption.map
      (fun r => (r.filter FileReq.written).length) = some 19 := by decide +kernel

/-! ## C175 relative uncertainties -/

/-- What C175 asks for: relative uncertainties are computed for the images that are found in earlier results. -/
def C175_full : Prop := ∀ (ekfOn ekfSection : Bool) (cams found : Nat), 2 ≤ cams → 0 < found → relativeStage ekfOn ekfSection cams found found = .ok ()

/-- C175 fails: not for missions with two cameras (BioCam), although the names of the results are made for them. -/
theorem C175_two_cameras_false : ¬ C175_full := by
  intro h
  have := h true true 2 1 (by omega) (by omega)
  simp [relativeStage] at this

/-- C175 (partial): exactly with three cameras and the EKF switched on in the settings, which the option alone does not do. Missing: other missions and
settings. -/
theorem C175_computed_iff_partial (ekfOn ekfSection : Bool) (cams found cropped : Nat) (hs : ekfOn = true → ekfSection = true) :
    relativeStage ekfOn ekfSection cams found cropped = .ok () ↔ 3 ≤ cams ∧ ekfOn = true ∧ 0 < found ∧ cropped = found := by
  unfold relativeStage
  by_cases h1 : cams < 3
  · simp [h1]
  · by_cases h2 : found = 0
    · simp [h1, h2]
    · cases ekfSection
      · cases ekfOn
        · simp [h1, h2]
        · exact absurd (hs rfl) (by simp)
      · cases ekfOn
        · simp [h1, h2]
        · by_cases h3 : cropped = 0
          · simp [h1, h2, h3, Ne.symm h2]
          · by_cases h4 : cropped = found
            · simp [h1, h2, h4]; omega
            · simp [h1, h2, h3, h4]

section Cov
variable {K : Type} [Field K] [LinearOrder K]

omit [LinearOrder K] in
/-- C175: relative to itself the first pose is certain; the covariances of the others are the sums of those of the two poses, entry by entry; nothing else
changes. -/
theorem C175_covariances (c : List K) (cs : List (List K)) (hl : ∀ d ∈ cs, d.length = c.length) :
    (relativeCovariances (c :: cs)).length = (c :: cs).length ∧ (relativeCovariances (c :: cs)).head? = some (c.map fun _ => 0) ∧
      (∀ r ∈ relativeCovariances (c :: cs), r.length = c.length) ∧
      ∀ (i k : ℕ) (d : List K) (x y : K), cs[i]? = some d → d[k]? = some x → c[k]? = some y →
        ((relativeCovariances (c :: cs))[i + 1]?.bind fun r => r[k]?) = some (x + y) := by
  refine ⟨by simp [relativeCovariances], rfl, fun r hr => ?_, fun i k d x y h1 h2 h3 => ?_⟩
  · simp only [relativeCovariances, List.mem_cons, List.mem_map] at hr
    rcases hr with rfl | ⟨d, hd, rfl⟩
    · simp
    · simp [hl d hd]
  · simp [relativeCovariances, h1, List.getElem?_zipWith, h2, h3]

/-- C175: variances stay non-negative and are not smaller than before. -/
theorem C175_variances [IsStrictOrderedRing K] (c d : List K) (k : ℕ) (x y z : K) (h1 : d[k]? = some x) (h2 : c[k]? = some y)
    (hz : ((relativeCovariances [c, d])[1]?.bind fun r => r[k]?) = some z) (hx : 0 ≤ x) (hy : 0 ≤ y) : 0 ≤ z ∧ x ≤ z := by
  simp [relativeCovariances, List.getElem?_zipWith, h1, h2] at hz
  rw [← hz]
  exact ⟨add_nonneg hx hy, le_add_of_nonneg_right hy⟩

end Cov

example : relativeCovariances [[(1 : ℚ), 0, 0, 2], [3, 1, 1, 4]] = [[0, 0, 0, 0], [4, 1, 1, 6]] := by decide +kernel

end Oplab.Props
