import Verif.Spec.SensorText
import Verif.Lemmas.Split
import Mathlib.Analysis.SpecialFunctions.Complex.Arg

/-!
# C213: texts of the sensors
-/

namespace Oplab.Props
open Oplab Oplab.Spec Real

private theorem read_line' (fields : List Text) (hne : fields ≠ []) (h : ∀ f ∈ fields, ',' ∉ f) : readLine (csvLine fields) = fields := by
  unfold readLine csvLine
  rw [List.dropLast_concat]
  exact List.splitOn_intercalate ',' h hne

private theorem triple_line (r : TripleRec) : tripleRowText r = csvLine [r.epoch, r.a, r.b, r.c, r.aStd, r.bStd, r.cStd] := by
  simp [tripleRowText, csvLine, List.intercalate, List.intersperse]

private theorem triple_read (r : TripleRec) (h : ∀ f ∈ [r.epoch, r.a, r.b, r.c, r.aStd, r.bStd, r.cStd], NoComma f) :
    readLine (tripleRowText r) = [r.epoch, r.a, r.b, r.c, r.aStd, r.bStd, r.cStd] := by
  rw [triple_line]
  exact read_line' _ (by simp) h

private theorem body_header : readLine bodyHeaderText = ["epoch_timestamp", "x_velocity", "y_velocity", "z_velocity", "x_velocity_std",
    "y_velocity_std", "z_velocity_std"].map String.toList := by decide +kernel

private theorem inertial_header : readLine inertialHeaderText = ["epoch_timestamp", "east_velocity", "north_velocity", "down_velocity",
    "east_velocity_std", "north_velocity_std", "down_velocity_std"].map String.toList := by decide +kernel

private theorem orientation_header : readLine orientationHeaderText = ["epoch_timestamp", "roll", "pitch", "yaw", "roll_std", "pitch_std",
    "yaw_std"].map String.toList := by decide +kernel

private theorem depth_header : readLine depthHeaderText = ["epoch_timestamp", "depth", "depth_std"].map String.toList := by decide +kernel
private theorem tide_header : readLine tideHeaderText = ["epoch_timestamp", "height", "height_std"].map String.toList := by decide +kernel
private theorem altitude_header : readLine altitudeHeaderText = ["epoch_timestamp", "altitude"].map String.toList := by decide +kernel
private theorem usbl_header : readLine usblHeaderText = ["epoch_timestamp", "latitude", "longitude", "northings", "eastings", "depth",
    "distance_to_ship", "latitude_std", "longitude_std", "northings_std", "eastings_std", "depth_std"].map String.toList := by decide +kernel

/-- C213: the rows of the tables of body velocities have their values below the right names. -/
theorem C213_velocity (r : TripleRec) (h : ∀ f ∈ [r.epoch, r.a, r.b, r.c, r.aStd, r.bStd, r.cStd], NoComma f) :
    RowIs bodyHeaderText (tripleRowText r) [("epoch_timestamp", r.epoch), ("x_velocity", r.a), ("y_velocity", r.b), ("z_velocity", r.c),
      ("x_velocity_std", r.aStd), ("y_velocity_std", r.bStd), ("z_velocity_std", r.cStd)] := by
  unfold RowIs tableRow
  rw [body_header, triple_read r h]
  exact ⟨rfl, rfl⟩

/-- C213: those of inertial velocities (components east, north, down). -/
theorem C213_inertial (r : TripleRec) (h : ∀ f ∈ [r.epoch, r.a, r.b, r.c, r.aStd, r.bStd, r.cStd], NoComma f) :
    RowIs inertialHeaderText (tripleRowText r) [("epoch_timestamp", r.epoch), ("east_velocity", r.a), ("north_velocity", r.b),
      ("down_velocity", r.c), ("east_velocity_std", r.aStd), ("north_velocity_std", r.bStd), ("down_velocity_std", r.cStd)] := by
  unfold RowIs tableRow
  rw [inertial_header, triple_read r h]
  exact ⟨rfl, rfl⟩

/-- C213: those of orientations. -/
theorem C213_orientation (r : TripleRec) (h : ∀ f ∈ [r.epoch, r.a, r.b, r.c, r.aStd, r.bStd, r.cStd], NoComma f) :
    RowIs orientationHeaderText (tripleRowText r) [("epoch_timestamp", r.epoch), ("roll", r.a), ("pitch", r.b), ("yaw", r.c),
      ("roll_std", r.aStd), ("pitch_std", r.bStd), ("yaw_std", r.cStd)] := by
  unfold RowIs tableRow
  rw [orientation_header, triple_read r h]
  exact ⟨rfl, rfl⟩

/-- C213: those of depths, tides and altitudes. -/
theorem C213_scalars (t v s : Text) (h : ∀ f ∈ [t, v, s], NoComma f) :
    RowIs depthHeaderText (pairRowText t v s) [("epoch_timestamp", t), ("depth", v), ("depth_std", s)] ∧
    RowIs tideHeaderText (pairRowText t v s) [("epoch_timestamp", t), ("height", v), ("height_std", s)] ∧
    RowIs altitudeHeaderText (altitudeRowText t v) [("epoch_timestamp", t), ("altitude", v)] := by
  have e1 : readLine (pairRowText t v s) = [t, v, s] := by
    have : pairRowText t v s = csvLine [t, v, s] := by simp [pairRowText, csvLine, List.intercalate, List.intersperse]
    rw [this]
    exact read_line' _ (by simp) h
  have e2 : readLine (altitudeRowText t v) = [t, v] := by
    have : altitudeRowText t v = csvLine [t, v] := by simp [altitudeRowText, csvLine, List.intercalate, List.intersperse]
    rw [this]
    exact read_line' _ (by simp) (fun f hf => h f (by simp only [List.mem_cons, List.not_mem_nil, or_false] at hf ⊢; tauto))
  unfold RowIs tableRow
  rw [depth_header, tide_header, altitude_header, e1, e2]
  exact ⟨⟨rfl, rfl⟩, ⟨rfl, rfl⟩, rfl, rfl⟩

/-- C213: those of the USBL. -/
theorem C213_usbl (r : UsblRec) (h : ∀ f ∈ [r.epoch, r.latitude, r.longitude, r.northings, r.eastings, r.depth, r.distance, r.latitudeStd,
      r.longitudeStd, r.northingsStd, r.eastingsStd, r.depthStd], NoComma f) :
    RowIs usblHeaderText (usblRowText r) [("epoch_timestamp", r.epoch), ("latitude", r.latitude), ("longitude", r.longitude),
      ("northings", r.northings), ("eastings", r.eastings), ("depth", r.depth), ("distance_to_ship", r.distance),
      ("latitude_std", r.latitudeStd), ("longitude_std", r.longitudeStd), ("northings_std", r.northingsStd),
      ("eastings_std", r.eastingsStd), ("depth_std", r.depthStd)] := by
  have e : readLine (usblRowText r) = [r.epoch, r.latitude, r.longitude, r.northings, r.eastings, r.depth, r.distance, r.latitudeStd,
      r.longitudeStd, r.northingsStd, r.eastingsStd, r.depthStd] := by
    have : usblRowText r = csvLine [r.epoch, r.latitude, r.longitude, r.northings, r.eastings, r.depth, r.distance, r.latitudeStd,
        r.longitudeStd, r.northingsStd, r.eastingsStd, r.depthStd] := by
      unfold usblRowText csvLine
      rw [List.intercalate]
      simp only [List.intersperse_cons_cons, List.intersperse_singleton, List.flatten_cons, List.flatten_nil, List.append_assoc,
        List.append_nil]
    rw [this]
    exact read_line' _ (by simp) h
  unfold RowIs tableRow
  rw [usbl_header, e]
  exact ⟨rfl, rfl⟩

/-! ### Lines of words -/

private theorem words_cons (f : Text) (hf : IsWord f) (c : Char) (hc : isBlank c = true) (rest : Text) :
    wordsOf (f ++ c :: rest) = f :: wordsOf rest := by
  unfold wordsOf
  rw [splitSep_append _ _ hc, splitSep_none _ _ hf.2, List.filter_append]
  have : ([f].filter fun w => !w.isEmpty) = [f] := by
    simp [hf.1]
  rw [this]
  rfl

private theorem words_blank (c : Char) (hc : isBlank c = true) (rest : Text) : wordsOf (c :: rest) = wordsOf rest := by
  unfold wordsOf
  rw [splitAtSep, if_pos hc]
  rfl

private theorem words_nil : wordsOf [] = [] := rfl

private theorem words_end (f : Text) (hf : IsWord f) : wordsOf (f ++ ['\n']) = [f] := by
  rw [words_cons f hf '\n' (by decide), words_nil]

private theorem words_sp (f : Text) (hf : IsWord f) (rest : Text) : wordsOf (f ++ ' ' :: rest) = f :: wordsOf rest :=
  words_cons f hf ' ' (by decide) rest

/-- C213: the names in the first line of a sidescan file. -/
theorem C213_sidescan_header : wordsOf sidescanHeader = ["#Mission", "Date", "Time", "NorthDeg", "EastDeg", "HeadingDeg", "RollDeg",
    "PitchDeg", "Altitude", "Depth", "Speed"].map String.toList := by decide +kernel

/-- C213: a sidescan line has its values in that order; a pose without latitude and longitude is at 0, 0. -/
theorem C213_sidescan_partial (date time f6 f3 : ℝ → Text) (hw : ∀ x, IsWord (date x) ∧ IsWord (time x) ∧ IsWord (f6 x) ∧ IsWord (f3 x))
    (t : ℝ) (pos : Option (ℝ × ℝ)) (yaw roll pitch altitude depth speed : ℝ) :
    ∃ line, sidescanRow date time f6 f3 ⟨t, pos.map Prod.fst, pos.map Prod.snd, some yaw, some roll, some pitch, some altitude, some depth,
        some speed⟩ = .ok line ∧
      wordsOf line = ["M150".toList, date t, time t, f6 (pos.getD (0, 0)).1, f6 (pos.getD (0, 0)).2, f3 yaw, f3 roll, f3 pitch, f3 altitude,
        f3 depth, f3 speed] := by
  have hm : IsWord "M150".toList := ⟨by decide, by decide⟩
  have h4 : "M150 ".toList = "M150".toList ++ [' '] := rfl
  cases pos with
  | none =>
    refine ⟨_, rfl, ?_⟩
    simp only [Option.getD_none, h4, List.append_assoc, List.cons_append, List.nil_append]
    rw [words_sp _ hm, words_sp _ (hw t).1, words_sp _ (hw t).2.1, words_sp _ (hw 0).2.2.1, words_sp _ (hw 0).2.2.1,
      words_sp _ (hw yaw).2.2.2, words_sp _ (hw roll).2.2.2, words_sp _ (hw pitch).2.2.2, words_sp _ (hw altitude).2.2.2,
      words_sp _ (hw depth).2.2.2, words_end _ (hw speed).2.2.2]
  | some p =>
    refine ⟨_, rfl, ?_⟩
    simp only [Option.getD_some, h4, List.append_assoc, List.cons_append, List.nil_append]
    rw [words_sp _ hm, words_sp _ (hw t).1, words_sp _ (hw t).2.1, words_sp _ (hw p.1).2.2.1, words_sp _ (hw p.2).2.2.1,
      words_sp _ (hw yaw).2.2.2, words_sp _ (hw roll).2.2.2, words_sp _ (hw pitch).2.2.2, words_sp _ (hw altitude).2.2.2,
      words_sp _ (hw depth).2.2.2, words_end _ (hw speed).2.2.2]

/-- C213 is false of a pose with a longitude but without a latitude. -/
theorem C213_longitude_false : ¬ SidescanLongitude := by
  intro h
  have hw : ∀ x : ℝ, IsWord (if x = 0 then ['0'] else ['5']) := by
    intro x
    split_ifs <;> exact ⟨by decide, by decide⟩
  have h1 := h (fun x => if x = 0 then ['0'] else ['5']) (fun x => if x = 0 then ['0'] else ['5']) (fun x => if x = 0 then ['0'] else ['5'])
    (fun x => if x = 0 then ['0'] else ['5']) ⟨0, none, some 5, some 0, some 0, some 0, some 0, some 0, some 0⟩ _ 5
    (fun x => ⟨hw x, hw x, hw x, hw x⟩) rfl rfl
  simp only [if_true] at h1
  rw [if_neg (by norm_num)] at h1
  revert h1
  decide +kernel

/-- C213: a sidescan file is the first line and one line for each pose, if every pose has a line. -/
theorem C213_sidescan_file (rows : List Text) (hr : rows ≠ []) :
    sidescanFile true (rows.map .ok) = (some (sidescanHeader ++ rows.flatten), none) := by
  have : ∀ rows : List Text, sidescanLines (rows.map .ok) = (rows.flatten, none) := by
    intro rows
    induction rows with
    | nil => rfl
    | cons a l ih => rw [List.map_cons, sidescanLines, ih]; rfl
  unfold sidescanFile
  rw [if_pos ⟨rfl, by simpa using hr⟩, this]

/-- C213: a pose without a line ends the file after the lines before it: silently if it lacks a value (an `IndexError`), with the error
otherwise. -/
theorem C213_sidescan_stops (rows : List Text) (e : Err) (rest : List (Res Text)) :
    sidescanFile true (rows.map .ok ++ .error e :: rest) =
      (some (sidescanHeader ++ rows.flatten), if e = .indexError then none else some e) := by
  have : ∀ rows : List Text, sidescanLines (rows.map .ok ++ .error e :: rest) =
      (rows.flatten, if e = .indexError then none else some e) := by
    intro rows
    induction rows with
    | nil => cases e <;> rfl
    | cons a l ih => rw [List.map_cons, List.cons_append, sidescanLines, ih]; rfl
  unfold sidescanFile
  rw [if_pos ⟨rfl, by simp⟩, this]

private theorem depth_words (a t d : Text) : a ++ [' '] ++ t ++ [' '] ++ d ++ ['\n'] = a ++ ' ' :: (t ++ ' ' :: (d ++ ['\n'])) := by
  simp

private theorem compass_words (a b c d e f g h i j k l m n : Text) :
    (a ++ [' ']) ++ b ++ (' ' :: c ++ [' ']) ++ d ++ (' ' :: e ++ [' ']) ++ f ++ (' ' :: g ++ [' ']) ++ h ++ (' ' :: i ++ [' ']) ++ j ++
      (' ' :: k ++ [' ']) ++ l ++ (' ' :: m ++ [' ']) ++ n ++ ['\n'] =
    a ++ ' ' :: (b ++ ' ' :: (c ++ ' ' :: (d ++ ' ' :: (e ++ ' ' :: (f ++ ' ' :: (g ++ ' ' :: (h ++ ' ' :: (i ++ ' ' :: (j ++ ' ' ::
      (k ++ ' ' :: (l ++ ' ' :: (m ++ ' ' :: (n ++ ['\n'])))))))))))))  := by
  simp only [List.append_assoc, List.cons_append, List.nil_append]

/-- C213: the line of a compass. -/
theorem C213_compass (r : TripleRec) (h : ∀ f ∈ [r.epoch, r.a, r.b, r.c, r.aStd, r.bStd, r.cStd], IsWord f) :
    wordsOf (orientationAcfr r) = ["PHINS_COMPASS:".toList, r.epoch, "r:".toList, r.a, "p:".toList, r.b, "h:".toList, r.c, "std_r:".toList, r.aStd,
      "std_p:".toList, r.bStd, "std_h:".toList, r.cStd] := by
  have h1 : "PHINS_COMPASS: ".toList = "PHINS_COMPASS:".toList ++ [' '] := by decide +kernel
  have h2 : " r: ".toList = ' ' :: "r:".toList ++ [' '] := by decide +kernel
  have h3 : " p: ".toList = ' ' :: "p:".toList ++ [' '] := by decide +kernel
  have h4 : " h: ".toList = ' ' :: "h:".toList ++ [' '] := by decide +kernel
  have h5 : " std_r: ".toList = ' ' :: "std_r:".toList ++ [' '] := by decide +kernel
  have h6 : " std_p: ".toList = ' ' :: "std_p:".toList ++ [' '] := by decide +kernel
  have h7 : " std_h: ".toList = ' ' :: "std_h:".toList ++ [' '] := by decide +kernel
  unfold orientationAcfr
  rw [h1, h2, h3, h4, h5, h6, h7, compass_words]
  rw [words_sp _ ⟨by decide, by decide⟩, words_sp _ (h _ (by simp)), words_sp _ ⟨by decide, by decide⟩, words_sp _ (h _ (by simp)),
    words_sp _ ⟨by decide, by decide⟩, words_sp _ (h _ (by simp)), words_sp _ ⟨by decide, by decide⟩, words_sp _ (h _ (by simp)),
    words_sp _ ⟨by decide, by decide⟩, words_sp _ (h _ (by simp)), words_sp _ ⟨by decide, by decide⟩, words_sp _ (h _ (by simp)),
    words_sp _ ⟨by decide, by decide⟩, words_end _ (h _ (by simp))]

/-- C213: the line of a depth sensor. -/
theorem C213_depth_line (t d : Text) (ht : IsWord t) (hd : IsWord d) : wordsOf (depthAcfr t d) = ["PAROSCI:".toList, t, d] := by
  have h : "PAROSCI: ".toList = "PAROSCI:".toList ++ [' '] := by decide +kernel
  unfold depthAcfr
  rw [h, depth_words, words_sp _ ⟨by decide, by decide⟩, words_sp _ ht, words_end _ hd]

private theorem word_join (s : Text) (hs : ∀ c ∈ s, isBlank c = false) (t : Text) (ht : IsWord t) : IsWord (s ++ t) := by
  refine ⟨by simp [ht.1], fun c hc => ?_⟩
  rcases List.mem_append.mp hc with h | h
  · exact hs c h
  · exact ht.2 c h

private theorem rdi_end (v : Text) : v ++ " nx:0 ny:0 nz:0 COG:0 SOG:0 bt_status:0  h_true:0 p_gimbal:0  sv: -9999.0\n".toList =
    v ++ ' ' :: "nx:0 ny:0 nz:0 COG:0 SOG:0 bt_status:0  h_true:0 p_gimbal:0  sv: -9999.0\n".toList := by
  have : " nx:0 ny:0 nz:0 COG:0 SOG:0 bt_status:0  h_true:0 p_gimbal:0  sv: -9999.0\n".toList =
    ' ' :: "nx:0 ny:0 nz:0 COG:0 SOG:0 bt_status:0  h_true:0 p_gimbal:0  sv: -9999.0\n".toList := by decide +kernel
  rw [this]

private theorem rdi_mid (v : Text) : " r1:0 r2:0 r3:0 r4:0  h:".toList ++ v = ' ' :: ("r1:0".toList ++ ' ' :: ("r2:0".toList ++ ' ' :: ("r3:0".toList ++ ' ' ::
    ("r4:0".toList ++ ' ' :: ' ' :: ("h:".toList ++ v))))) := by
  have : " r1:0 r2:0 r3:0 r4:0  h:".toList = ' ' :: ("r1:0".toList ++ ' ' :: ("r2:0".toList ++ ' ' :: ("r3:0".toList ++ ' ' ::
    ("r4:0".toList ++ ' ' :: ' ' :: "h:".toList)))) := by decide +kernel
  rw [this]
  simp only [List.append_assoc, List.cons_append]

private theorem rdi_tail : wordsOf "nx:0 ny:0 nz:0 COG:0 SOG:0 bt_status:0  h_true:0 p_gimbal:0  sv: -9999.0\n".toList =
    ["nx:0", "ny:0", "nz:0", "COG:0", "SOG:0", "bt_status:0", "h_true:0", "p_gimbal:0", "sv:", "-9999.0"].map String.toList := by
  decide +kernel

private theorem rdi_assoc (a b c d e f g h i j k l m n o p q : Text) :
    (a ++ [' ']) ++ b ++ (' ' :: c) ++ d ++ e ++ f ++ (' ' :: g) ++ h ++ (' ' :: i) ++ j ++ (' ' :: k) ++ l ++ (' ' :: m) ++ n ++ (' ' :: o) ++ p ++ q =
    a ++ ' ' :: (b ++ ' ' :: ((c ++ d) ++ (e ++ (f ++ ' ' :: ((g ++ h) ++ ' ' :: ((i ++ j) ++ ' ' :: ((k ++ l) ++ ' ' :: ((m ++ n) ++ ' ' ::
      ((o ++ p) ++ q))))))))) := by
  simp only [List.append_assoc, List.cons_append, List.nil_append]

/-- C213: the line of a velocity has the altitude, the angles and the velocity behind the right names. -/
theorem C213_rdi (v o : TripleRec) (altitude : Text)
    (hw : ∀ f ∈ [v.epoch, v.a, v.b, v.c, o.a, o.b, o.c, altitude], IsWord f) :
    wordsOf (velocityAcfr v o altitude) = ["RDI:".toList, v.epoch, "alt:".toList ++ altitude, "r1:0".toList, "r2:0".toList, "r3:0".toList,
      "r4:0".toList, "h:".toList ++ o.c, "p:".toList ++ o.b, "r:".toList ++ o.a, "vx:".toList ++ v.a, "vy:".toList ++ v.b, "vz:".toList ++ v.c] ++
      ["nx:0", "ny:0", "nz:0", "COG:0", "SOG:0", "bt_status:0", "h_true:0", "p_gimbal:0", "sv:", "-9999.0"].map String.toList := by
  have h1 : "RDI: ".toList = "RDI:".toList ++ [' '] := by decide +kernel
  have h2 : " alt:".toList = ' ' :: "alt:".toList := by decide +kernel
  have h3 : " p:".toList = ' ' :: "p:".toList := by decide +kernel
  have h4 : " r:".toList = ' ' :: "r:".toList := by decide +kernel
  have h5 : " vx:".toList = ' ' :: "vx:".toList := by decide +kernel
  have h6 : " vy:".toList = ' ' :: "vy:".toList := by decide +kernel
  have h7 : " vz:".toList = ' ' :: "vz:".toList := by decide +kernel
  unfold velocityAcfr
  rw [h1, h2, h3, h4, h5, h6, h7, rdi_assoc, rdi_mid, rdi_end, words_sp _ ⟨by decide, by decide⟩, words_sp _ (hw _ (by simp)),
    words_sp _ (word_join _ (by decide) _ (hw _ (by simp))), words_sp _ ⟨by decide, by decide⟩, words_sp _ ⟨by decide, by decide⟩,
    words_sp _ ⟨by decide, by decide⟩, words_sp _ ⟨by decide, by decide⟩, words_blank _ (by decide), ← List.append_assoc "h:".toList,
    words_sp _ (word_join _ (by decide) _ (hw _ (by simp))), words_sp _ (word_join _ (by decide) _ (hw _ (by simp))),
    words_sp _ (word_join _ (by decide) _ (hw _ (by simp))), words_sp _ (word_join _ (by decide) _ (hw _ (by simp))),
    words_sp _ (word_join _ (by decide) _ (hw _ (by simp))), words_sp _ (word_join _ (by decide) _ (hw _ (by simp))), rdi_tail]
  simp only [List.cons_append, List.nil_append]

/-- C213: the horizontal range and the depth make up the distance, exactly if that is possible; otherwise it is -1. -/
theorem C213_range (distance : Option ℝ) (depth : ℝ) :
    (0 ≤ acfrRange distance depth ↔ ∃ d, distance = some d ∧ 0 < d ∧ |depth| ≤ d ∧ d ≠ depth) ∧
    (0 ≤ acfrRange distance depth → ∀ d, distance = some d → acfrRange distance depth ^ 2 + depth ^ 2 = d ^ 2) ∧
    (¬ 0 ≤ acfrRange distance depth → acfrRange distance depth = -1) := by
  cases distance with
  | none => simp [acfrRange]
  | some d =>
    simp only [acfrRange, Option.some.injEq, exists_eq_left', forall_eq']
    by_cases h : d > depth ∧ d > 0
    · rw [if_pos h]
      by_cases h2 : d ^ 2 - depth ^ 2 < 0
      · rw [if_pos h2]
        refine ⟨⟨fun q => by norm_num at q, ?_⟩, fun q => by norm_num at q, fun _ => rfl⟩
        rintro ⟨-, h4, -⟩
        have := pow_le_pow_left₀ (abs_nonneg depth) h4 2
        rw [sq_abs] at this
        linarith
      · rw [if_neg h2]
        refine ⟨⟨fun _ => ⟨h.2, ?_, h.1.ne'⟩, fun _ => Real.sqrt_nonneg _⟩, fun _ => ?_, fun q => absurd (Real.sqrt_nonneg _) q⟩
        · exact abs_le_of_sq_le_sq (by linarith) h.2.le
        · rw [Real.sq_sqrt (by linarith)]; ring
    · rw [if_neg h]
      refine ⟨⟨fun q => by norm_num at q, ?_⟩, fun q => by norm_num at q, fun _ => rfl⟩
      rintro ⟨h3, h4, h5⟩
      exact absurd ⟨lt_of_le_of_ne ((le_abs_self _).trans h4) (Ne.symm h5), h3⟩ h

/-- C213: the bearing is that of the vehicle seen from the origin of the mission. -/
theorem C213_bearing_partial (n e : ℝ) : IsBearing n e (acfrBearing n e) := by
  have hpi := Real.pi_pos
  have h1 := Complex.neg_pi_lt_arg ⟨n, e⟩
  have h2 := Complex.arg_le_pi ⟨n, e⟩
  have hr : rad (acfrBearing n e) = Complex.arg ⟨n, e⟩ := by
    unfold rad acfrBearing atan2
    field_simp
  refine ⟨?_, ?_, ‖(⟨n, e⟩ : ℂ)‖, norm_nonneg _, ?_, ?_⟩
  · unfold acfrBearing atan2
    rw [lt_div_iff₀ hpi]
    nlinarith
  · unfold acfrBearing atan2
    rw [div_le_iff₀ hpi]
    nlinarith
  · rw [hr]
    exact (Complex.norm_mul_cos_arg (⟨n, e⟩ : ℂ)).symm
  · rw [hr]
    exact (Complex.norm_mul_sin_arg (⟨n, e⟩ : ℂ)).symm

/-- C213 is false of the bearing from a ship that is elsewhere: a vehicle south of the ship is reported to the north. -/
theorem C213_bearing_false : ¬ AcfrBearing := by
  intro h
  obtain ⟨-, -, r, hr, h1, h2⟩ := h 1 0 2 0
  have e : acfrBearing 1 0 = 0 := by
    unfold acfrBearing atan2
    have : (⟨1, 0⟩ : ℂ) = 1 := rfl
    rw [this, Complex.arg_one]; ring
  rw [e] at h1
  have : rad 0 = 0 := by unfold rad; ring
  rw [this, Real.cos_zero] at h1
  linarith

/-- The hypotheses are met. -/
example : RowIs depthHeaderText (pairRowText "1.5".toList "100.25".toList "0.01".toList)
    [("epoch_timestamp", "1.5".toList), ("depth", "100.25".toList), ("depth_std", "0.01".toList)] :=
  (C213_scalars _ _ _ (by unfold NoComma; decide +kernel)).1

example : IsWord "-12.5".toList := ⟨by decide, by decide⟩

end Oplab.Props
