import Verif.Spec.RawExport
import Verif.Props.Acfr
import Verif.Props.MergeRun
import Verif.Props.SensorText

/-! # C240: the ACFR file of the measurements of a dive -/

namespace Oplab.Props
open Oplab Oplab.Spec

/-! ## Lines -/

private theorem words_first (f : Text) (hf : IsWord f) (c : Char) (hc : isBlank c = true) (rest : Text) :
    wordsOf (f ++ c :: rest) = f :: wordsOf rest := by
  unfold wordsOf
  rw [splitSep_append _ _ hc, splitSep_none _ _ hf.2, List.filter_append]
  have : ([f].filter fun w => !w.isEmpty) = [f] := by simp [hf.1]
  rw [this]
  rfl

private theorem words_join : ∀ (ws : List Text), ws ≠ [] → (∀ w ∈ ws, IsWord w) → wordsOf ([' '].intercalate ws ++ ['\n']) = ws
  | [], h, _ => absurd rfl h
  | [w], _, h => by
    have : [' '].intercalate [w] ++ ['\n'] = w ++ '\n' :: [] := by simp [List.intercalate]
    rw [this, words_first w (h w (by simp)) '\n' (by decide)]
    rfl
  | w :: v :: ws, _, h => by
    have : [' '].intercalate (w :: v :: ws) ++ ['\n'] = w ++ ' ' :: ([' '].intercalate (v :: ws) ++ ['\n']) := by
      simp [List.intercalate, List.intersperse]
    rw [this, words_first w (h w (by simp)) ' ' (by decide), words_join (v :: ws) (by simp) fun x hx => h x (List.mem_cons_of_mem _ hx)]

private theorem ssbl_assoc (a b c d e f g h i j k l m n o p q r : Text) :
    (a ++ [' ']) ++ b ++ (' ' :: c ++ [' ']) ++ d ++ (' ' :: e ++ [' ']) ++ f ++ (' ' :: g ++ [' ']) ++ h ++ (' ' :: i ++ [' ']) ++ j ++
      (' ' :: k ++ [' ']) ++ l ++ (' ' :: m ++ [' ']) ++ n ++ (' ' :: o ++ [' ']) ++ p ++ (' ' :: q ++ [' ']) ++ r ++ ['\n'] =
    [' '].intercalate [a, b, c, d, e, f, g, h, i, j, k, l, m, n, o, p, q, r] ++ ['\n'] := by
  simp only [List.intercalate, List.intersperse_cons_cons, List.intersperse_singleton, List.flatten_cons, List.flatten_nil, List.append_assoc,
    List.cons_append, List.nil_append]

private theorem ssbl_join (t sx sy x y z hr sr b : Text) : usblAcfr t sx sy x y z hr sr b =
    [' '].intercalate ["SSBL_FIX:".toList, t, "ship_x:".toList, sx, "ship_y:".toList, sy, "target_x:".toList, x, "target_y:".toList, y,
      "target_z:".toList, z, "target_hr:".toList, hr, "target_sr:".toList, sr, "target_bearing:".toList, b] ++ ['\n'] := by
  have h1 : "SSBL_FIX: ".toList = "SSBL_FIX:".toList ++ [' '] := by decide +kernel
  have h2 : " ship_x: ".toList = ' ' :: "ship_x:".toList ++ [' '] := by decide +kernel
  have h3 : " ship_y: ".toList = ' ' :: "ship_y:".toList ++ [' '] := by decide +kernel
  have h4 : " target_x: ".toList = ' ' :: "target_x:".toList ++ [' '] := by decide +kernel
  have h5 : " target_y: ".toList = ' ' :: "target_y:".toList ++ [' '] := by decide +kernel
  have h6 : " target_z: ".toList = ' ' :: "target_z:".toList ++ [' '] := by decide +kernel
  have h7 : " target_hr: ".toList = ' ' :: "target_hr:".toList ++ [' '] := by decide +kernel
  have h8 : " target_sr: ".toList = ' ' :: "target_sr:".toList ++ [' '] := by decide +kernel
  have h9 : " target_bearing: ".toList = ' ' :: "target_bearing:".toList ++ [' '] := by decide +kernel
  unfold usblAcfr
  rw [h1, h2, h3, h4, h5, h6, h7, h8, h9, ssbl_assoc]

private theorem join_line (ws : List Text) (h : ∀ w ∈ ws, IsWord w) : '\n' ∉ [' '].intercalate ws := by
  intro hc
  simp only [List.intercalate, List.mem_flatten] at hc
  obtain ⟨w, hw, hc⟩ := hc
  have : w ∈ ws ∨ w = [' '] := by
    induction ws with
    | nil => simp at hw
    | cons a l ih =>
      cases l with
      | nil => simp at hw; simp [hw]
      | cons b l =>
        rw [List.intersperse_cons_cons] at hw
        simp only [List.mem_cons] at hw
        rcases hw with rfl | rfl | hw
        · simp
        · simp
        · rcases ih (fun x hx => h x (List.mem_cons_of_mem _ hx)) hw with h1 | h1
          · exact .inl (List.mem_cons_of_mem _ h1)
          · exact .inr h1
  rcases this with h1 | rfl
  · have := (h w h1).2 '\n' hc
    revert this
    decide
  · revert hc
    decide

private theorem none_word : IsWord "None".toList := ⟨by decide, by decide⟩

private theorem str_word (num : ℝ → Text) (hw : ∀ x, IsWord (num x)) (x : Option ℚ) : IsWord (strText num x) := by
  cases x with
  | none => exact none_word
  | some x => exact hw _

private theorem ssbl_words (t sx sy x y z hr sr b : Text) (h : ∀ w ∈ [t, sx, sy, x, y, z, hr, sr, b], IsWord w) :
    ∀ w ∈ ["SSBL_FIX:".toList, t, "ship_x:".toList, sx, "ship_y:".toList, sy, "target_x:".toList, x, "target_y:".toList, y,
      "target_z:".toList, z, "target_hr:".toList, hr, "target_sr:".toList, sr, "target_bearing:".toList, b], IsWord w := by
  simp only [List.forall_mem_cons, List.not_mem_nil, false_imp_iff, implies_true, and_true] at h ⊢
  obtain ⟨h1, h2, h3, h4, h5, h6, h7, h8, h9⟩ := h
  exact ⟨⟨by decide, by decide⟩, h1, ⟨by decide, by decide⟩, h2, ⟨by decide, by decide⟩, h3, ⟨by decide, by decide⟩, h4, ⟨by decide, by decide⟩, h5,
    ⟨by decide, by decide⟩, h6, ⟨by decide, by decide⟩, h7, ⟨by decide, by decide⟩, h8, ⟨by decide, by decide⟩, h9⟩

/-- A line and its words. -/
private def LineIs (l : Text) (ws : List Text) : Prop := wordsOf l = ws ∧ ∃ w, l = w ++ ['\n'] ∧ '\n' ∉ w

private theorem join_is (ws : List Text) (hne : ws ≠ []) (h : ∀ w ∈ ws, IsWord w) : LineIs ([' '].intercalate ws ++ ['\n']) ws :=
  ⟨words_join ws hne h, _, rfl, join_line ws h⟩

private theorem no_newline {t : Text} (h : IsWord t) : '\n' ∉ t := by
  intro hc
  have := h.2 _ hc
  revert this
  decide

private theorem vis_is (num : ℝ → Text) (hw : ∀ x, IsWord (num x)) (c : CamM ℚ) (t : ℚ) (ht : c.epoch = some t) (hf : IsWord c.filename.toList) :
    LineIs (visRawLine num c) ["VIS:".toList, num (valOf c.epoch), '[' :: num (valOf c.epoch) ++ [']'], c.filename.toList, "exp:".toList, "0".toList] := by
  have h1 : "VIS: ".toList = "VIS:".toList ++ [' '] := by decide
  have h2 : " [".toList = [' ', '['] := by decide
  have h3 : "] ".toList = [']', ' '] := by decide
  have h4 : " exp: 0\n".toList = ' ' :: "exp:".toList ++ ' ' :: "0".toList ++ ['\n'] := by decide
  have : visRawLine num c = [' '].intercalate ["VIS:".toList, num (valOf c.epoch), '[' :: num (valOf c.epoch) ++ [']'], c.filename.toList, "exp:".toList,
      "0".toList] ++ ['\n'] := by
    unfold visRawLine
    rw [h1, h2, h3, h4, ht]
    simp only [strText, valOf, Option.getD_some, List.intercalate, List.intersperse_cons_cons, List.intersperse_singleton, List.flatten_cons,
      List.flatten_nil, List.append_assoc, List.cons_append, List.nil_append]
  rw [this]
  refine join_is _ (by simp) ?_
  simp only [List.forall_mem_cons, List.not_mem_nil, false_imp_iff, implies_true, and_true]
  refine ⟨⟨by decide, by decide⟩, hw _, ⟨by simp, ?_⟩, hf, ⟨by decide, by decide⟩, ⟨by decide, by decide⟩⟩
  intro x hx
  simp only [List.cons_append, List.mem_cons, List.mem_append, List.not_mem_nil, or_false] at hx
  rcases hx with rfl | hx | rfl
  · decide
  · exact (hw _).2 x hx
  · decide

private theorem compass_is (r : TripleRec) (h : ∀ f ∈ [r.epoch, r.a, r.b, r.c, r.aStd, r.bStd, r.cStd], IsWord f) :
    LineIs (orientationAcfr r) ["PHINS_COMPASS:".toList, r.epoch, "r:".toList, r.a, "p:".toList, r.b, "h:".toList, r.c, "std_r:".toList, r.aStd,
      "std_p:".toList, r.bStd, "std_h:".toList, r.cStd] := by
  refine ⟨C213_compass r h, _, rfl, ?_⟩
  simp only [List.forall_mem_cons, List.not_mem_nil, false_imp_iff, implies_true, and_true] at h
  obtain ⟨a, b, c, d, e, f, g⟩ := h
  have k1 : '\n' ∉ "PHINS_COMPASS: ".toList := by decide
  have k2 : '\n' ∉ " r: ".toList := by decide
  have k3 : '\n' ∉ " p: ".toList := by decide
  have k4 : '\n' ∉ " h: ".toList := by decide
  have k5 : '\n' ∉ " std_r: ".toList := by decide
  have k6 : '\n' ∉ " std_p: ".toList := by decide
  have k7 : '\n' ∉ " std_h: ".toList := by decide
  simp only [List.mem_append, not_or]
  exact ⟨⟨⟨⟨⟨⟨⟨⟨⟨⟨⟨⟨⟨k1, no_newline a⟩, k2⟩, no_newline b⟩, k3⟩, no_newline c⟩, k4⟩, no_newline d⟩, k5⟩, no_newline e⟩, k6⟩, no_newline f⟩, k7⟩, no_newline g⟩

private theorem depth_is (t d : Text) (ht : IsWord t) (hd : IsWord d) : LineIs (depthAcfr t d) ["PAROSCI:".toList, t, d] := by
  refine ⟨C213_depth_line t d ht hd, _, rfl, ?_⟩
  have k1 : '\n' ∉ "PAROSCI: ".toList := by decide
  have k2 : '\n' ∉ [' '] := by decide
  simp only [List.mem_append, not_or]
  exact ⟨⟨⟨k1, no_newline ht⟩, k2⟩, no_newline hd⟩

private theorem velocity_is (v o : TripleRec) (altitude : Text) (hw : ∀ f ∈ [v.epoch, v.a, v.b, v.c, o.a, o.b, o.c, altitude], IsWord f) :
    LineIs (velocityAcfr v o altitude) (["RDI:".toList, v.epoch, "alt:".toList ++ altitude, "r1:0".toList, "r2:0".toList, "r3:0".toList,
      "r4:0".toList, "h:".toList ++ o.c, "p:".toList ++ o.b, "r:".toList ++ o.a, "vx:".toList ++ v.a, "vy:".toList ++ v.b, "vz:".toList ++ v.c] ++
      ["nx:0", "ny:0", "nz:0", "COG:0", "SOG:0", "bt_status:0", "h_true:0", "p_gimbal:0", "sv:", "-9999.0"].map String.toList) := by
  refine ⟨C213_rdi v o altitude hw, ?_⟩
  have k0 : " nx:0 ny:0 nz:0 COG:0 SOG:0 bt_status:0  h_true:0 p_gimbal:0  sv: -9999.0\n".toList =
    " nx:0 ny:0 nz:0 COG:0 SOG:0 bt_status:0  h_true:0 p_gimbal:0  sv: -9999.0".toList ++ ['\n'] := by decide +kernel
  unfold velocityAcfr
  rw [k0, ← List.append_assoc]
  refine ⟨_, rfl, ?_⟩
  simp only [List.forall_mem_cons, List.not_mem_nil, false_imp_iff, implies_true, and_true] at hw
  obtain ⟨a, b, c, d, e, f, g, h⟩ := hw
  have k1 : '\n' ∉ "RDI: ".toList := by decide
  have k2 : '\n' ∉ " alt:".toList := by decide
  have k3 : '\n' ∉ " r1:0 r2:0 r3:0 r4:0  h:".toList := by decide +kernel
  have k4 : '\n' ∉ " p:".toList := by decide
  have k5 : '\n' ∉ " r:".toList := by decide
  have k6 : '\n' ∉ " vx:".toList := by decide
  have k7 : '\n' ∉ " vy:".toList := by decide
  have k8 : '\n' ∉ " vz:".toList := by decide
  have k9 : '\n' ∉ " nx:0 ny:0 nz:0 COG:0 SOG:0 bt_status:0  h_true:0 p_gimbal:0  sv: -9999.0".toList := by decide +kernel
  simp only [List.mem_append, not_or]
  exact ⟨⟨⟨⟨⟨⟨⟨⟨⟨⟨⟨⟨⟨⟨⟨⟨k1, no_newline a⟩, k2⟩, no_newline h⟩, k3⟩, no_newline g⟩, k4⟩, no_newline f⟩, k5⟩, no_newline e⟩, k6⟩, no_newline b⟩, k7⟩,
    no_newline c⟩, k8⟩, no_newline d⟩, k9⟩

/-! ## Objects of a record -/

private theorem ofOpt_asNum (x : Option ℚ) : (Json.ofOpt x).asNum = .ok x := by cases x <;> rfl

/-- What is handed to the writer for a measurement. -/
private def sensedOf : Meas ℚ → List Sensed
  | .body s => match s.epoch, s.epochDvl with
    | some t, some td => if |t - td| < 1 then [.body { s with epoch := some td, epochDvl := none, sensor := "unknown" }] else []
    | _, _ => []
  | .inertial s => [.inertial { s with sensor := "unknown" }]
  | .orient s => [.orient { s with sensor := "unknown" }]
  | .depth s => [.depth { s with sensor := "unknown" }]
  | .alt s => [.alt { epoch := s.epoch, alt := s.alt, altStd := s.altStd }]
  | .usbl s => [.usbl { s with sensor := "unknown" }]
  | .cam s => [.cam { s with sensor := "unknown" }, .cam {}]
  | .stereo l r _ => [.cam { l with sensor := "unknown" }, .cam { r with sensor := "unknown" }]

private theorem cats :
    (strIn "velocity" "velocity" = true ∧ strIn "orientation" "velocity" = false ∧ strIn "depth" "velocity" = false ∧
      strIn "altitude" "velocity" = false ∧ strIn "usbl" "velocity" = false ∧ strIn "image" "velocity" = false) ∧
    (strIn "velocity" "orientation" = false ∧ strIn "orientation" "orientation" = true ∧ strIn "depth" "orientation" = false ∧
      strIn "altitude" "orientation" = false ∧ strIn "usbl" "orientation" = false ∧ strIn "image" "orientation" = false) ∧
    (strIn "velocity" "depth" = false ∧ strIn "orientation" "depth" = false ∧ strIn "depth" "depth" = true ∧
      strIn "altitude" "depth" = false ∧ strIn "usbl" "depth" = false ∧ strIn "image" "depth" = false) ∧
    (strIn "velocity" "altitude" = false ∧ strIn "orientation" "altitude" = false ∧ strIn "depth" "altitude" = false ∧
      strIn "altitude" "altitude" = true ∧ strIn "usbl" "altitude" = false ∧ strIn "image" "altitude" = false) ∧
    (strIn "velocity" "usbl" = false ∧ strIn "orientation" "usbl" = false ∧ strIn "depth" "usbl" = false ∧
      strIn "altitude" "usbl" = false ∧ strIn "usbl" "usbl" = true ∧ strIn "image" "usbl" = false) ∧
    (strIn "velocity" "image" = false ∧ strIn "orientation" "image" = false ∧ strIn "depth" "image" = false ∧
      strIn "altitude" "image" = false ∧ strIn "usbl" "image" = false ∧ strIn "image" "image" = true) ∧
    (strIn "velocity" "origin" = false ∧ strIn "orientation" "origin" = false ∧ strIn "depth" "origin" = false ∧
      strIn "altitude" "origin" = false ∧ strIn "usbl" "origin" = false ∧ strIn "image" "origin" = false) ∧
    strIn "body" "body" = true ∧ strIn "inertial" "body" = false ∧ strIn "body" "inertial" = false ∧ strIn "inertial" "inertial" = true := by
  decide +kernel

private theorem record_of (llStd : Option ℚ → Option ℚ → Option ℚ → Option ℚ → ℚ → ℚ → Res (Option ℚ × Option ℚ)) (a b : ℚ) (m : Meas ℚ)
    (hv : m.Valid) (h : InWindow a b m) : recordSensed llStd a b m.json = (sensedOf m).map .ok := by
  obtain ⟨t, ht, h1, h2⟩ := h
  have hw : t ≥ a ∧ t ≤ b := ⟨h1, h2⟩
  have htime : m.json.at1 "epoch_timestamp" = .ok (some t) := by
    rw [← ht]
    cases m <;>
      simp [Meas.json, Meas.time, BodyVel.toJson, InertialVel.toJson, Orient.toJson, DepthM.toJson,
        AltM.toJson, UsblM.toJson, CamM.toJson, stereoToJson, Json.at1, Json.key, bind, Except.bind, ofOpt_asNum]
  obtain ⟨c1, c2, c3, c4, c5, c6, -, f1, f2, f3, f4⟩ := cats
  unfold recordSensed
  simp only [htime, bind, Except.bind, reqNum, if_pos hw]
  cases m with
  | body s =>
    have hk : s.toJson.key "category" = .ok (.str "velocity") := by simp [BodyVel.toJson, Json.key]
    have hf : s.toJson.key "frame" = .ok (.str "body") := by simp [BodyVel.toJson, Json.key]
    have hd : s.toJson.has "epoch_timestamp_dvl" = true := by simp [BodyVel.toJson, Json.has]
    have he : s.toJson.at1 "epoch_timestamp_dvl" = .ok s.epochDvl := by
      simp [BodyVel.toJson, Json.at1, Json.key, bind, Except.bind, ofOpt_asNum]
    obtain ⟨j, g1, g2⟩ := C27_body_velocity_partial s hv
    have hv' : s.valid = true := hv
    simp only [exportOplab, hv', if_true, Option.some.injEq] at g1
    subst g1
    simp only [Meas.time] at ht
    simp only [BodyVel.valid, Bool.and_eq_true, Option.isSome_iff_exists] at hv'
    obtain ⟨-, td, htd⟩ := hv'
    simp only [Meas.json, hk, Json.asStr, c1, hf, velocitySensed, f1, f2, hd, he, htd, bind, Except.bind, reqNum, Bool.and_self, Bool.false_eq_true,
      if_true, if_false, List.append_nil, sensedOf, ht, g2]
    split_ifs
    · simp [Except.map]
    · rfl
  | inertial s =>
    have hk : s.toJson.key "category" = .ok (.str "velocity") := by simp [InertialVel.toJson, Json.key]
    have hf : s.toJson.key "frame" = .ok (.str "inertial") := by simp [InertialVel.toJson, Json.key]
    obtain ⟨j, g1, g2⟩ := C27_inertial_velocity_round_trip s hv
    have hv' : s.valid = true := hv
    simp only [exportOplab, hv', if_true, Option.some.injEq] at g1
    subst g1
    simp [Meas.json, hk, Json.asStr, c1, hf, velocitySensed, f3, f4, sensedOf, g2, Except.map]
  | orient s =>
    have hk : s.toJson.key "category" = .ok (.str "orientation") := by simp [Orient.toJson, Json.key]
    obtain ⟨j, g1, g2⟩ := C27_orientation_round_trip s hv
    have hv' : s.valid = true := hv
    simp only [exportOplab, hv', if_true, Option.some.injEq] at g1
    subst g1
    simp [Meas.json, hk, Json.asStr, c2, sensedOf, g2, Except.map]
  | depth s =>
    have hk : s.toJson.key "category" = .ok (.str "depth") := by simp [DepthM.toJson, Json.key]
    obtain ⟨j, g1, g2⟩ := C27_depth_round_trip s hv
    have hv' : s.valid = true := hv
    simp only [exportOplab, hv', if_true, Option.some.injEq] at g1
    subst g1
    simp [Meas.json, hk, Json.asStr, c3, sensedOf, g2, Except.map]
  | alt s =>
    have hk : s.toJson.key "category" = .ok (.str "altitude") := by simp [AltM.toJson, Json.key]
    obtain ⟨j, g1, g2⟩ := C27_altitude_partial s hv
    have hv' : s.valid = true := hv
    simp only [exportOplab, hv', if_true, Option.some.injEq] at g1
    subst g1
    simp [Meas.json, hk, Json.asStr, c4, sensedOf, g2, Except.map]
  | usbl s =>
    have hk : s.toJson.key "category" = .ok (.str "usbl") := by simp [UsblM.toJson, Json.key]
    obtain ⟨j, g1, g2⟩ := C27_usbl_round_trip llStd s hv
    have hv' : s.valid = true := hv
    simp only [exportOplab, hv', if_true, Option.some.injEq] at g1
    subst g1
    simp [Meas.json, hk, Json.asStr, c5, sensedOf, g2, Except.map]
  | cam s =>
    have hk : s.toJson.key "category" = .ok (.str "image") := by simp [CamM.toJson, Json.key]
    obtain ⟨j, g1, g2⟩ := C27_camera_round_trip s hv
    have hv' : s.valid = true := hv
    simp only [exportOplab, hv', if_true, Option.some.injEq] at g1
    subst g1
    have g3 : CamM.fromJson {} s.toJson "camera2" = .ok {} := by simp [CamM.fromJson, CamM.toJson, Json.has, pure, Except.pure]
    simp [Meas.json, hk, Json.asStr, c6, sensedOf, g2, g3, Except.map]
  | stereo l r n =>
    have hk : (stereoToJson l r n).key "category" = .ok (.str "image") := by simp [stereoToJson, Json.key]
    obtain ⟨g2, g3⟩ := C27_stereo_round_trip l r n
    simp [Meas.json, hk, Json.asStr, c6, sensedOf, g2, g3, Except.map]

private theorem origin_record (llStd : Option ℚ → Option ℚ → Option ℚ → Option ℚ → ℚ → ℚ → Res (Option ℚ × Option ℚ)) (a b : ℚ) (o : Json ℚ) :
    recordSensed llStd a b (originRecord o).2 = [] := by
  have ht : Json.at1 (originRecord o).2 "epoch_timestamp" = .ok (some 0) := by
    simp [originRecord, Json.at1, Json.key, bind, Except.bind, Json.asNum]
  have hk : Json.key (originRecord o).2 "category" = .ok (.str "origin") := by
    simp [originRecord, Json.key]
  obtain ⟨-, -, -, -, -, -, c7, -⟩ := cats
  unfold recordSensed
  simp only [ht, bind, Except.bind, reqNum, hk, Json.asStr, c7, Bool.false_eq_true, if_false, List.append_nil, ite_self]

/-! ## Writing -/

/-- The kind of a measurement for the writer. -/
private def kindOf (m : Meas ℚ) : RawMeas (Meas ℚ) :=
  match m with
  | .body _ => if (sensedOf m).isEmpty then .ignored else .velocity m
  | .inertial _ => .ignored
  | .orient _ => .orientation m
  | .depth _ => .depth m
  | .alt _ => .altitude m
  | .usbl _ => .usbl m
  | .cam _ => .camera false m
  | .stereo _ _ _ => .camera false m

private def visOf (num : ℝ → Text) (c : CamM ℚ) : List Text := if strIn "xxx" c.filename then [] else [visRawLine num c]

/-- The object of a measurement. -/
private def objOf (m : Meas ℚ) : Sensed := (sensedOf m).headD (.cam {})

/-- The lines of a measurement, given the record of the writer. -/
private noncomputable def linesOf (num : ℝ → Text) (m : Meas ℚ) (r : Option (RawOut (Meas ℚ))) : List Text :=
  match m with
  | .cam c => visOf num { c with sensor := "unknown" } ++ visOf num {}
  | .stereo l r _ => visOf num { l with sensor := "unknown" } ++ visOf num { r with sensor := "unknown" }
  | .orient o => match compassLine num o with
    | .ok t => [t]
    | .error _ => []
  | .depth d => [depthAcfr (strText num d.depthTime) (strText num d.depth)]
  | .usbl u => match usblRawLine num u with
    | .ok t => [t]
    | .error _ => []
  | .body _ => match r with
    | some (.rdi v a o) => match rawText num (.rdi (objOf v) (objOf a) (objOf o)) with
      | .ok t => [t]
      | .error _ => []
    | _ => []
  | _ => []

private def objState (st : RawState (Meas ℚ)) : RawState Sensed := ⟨st.alt.map objOf, st.ori.map objOf⟩

/-- The held altitude is an altitude, the held orientation a whole orientation. -/
private def Held (st : RawState (Meas ℚ)) : Prop :=
  (∀ m, st.alt = some m → ∃ a, m = .alt a ∧ m.Valid) ∧ ∀ m, st.ori = some m → ∃ o, m = .orient o ∧ m.Valid ∧ Whole m

private theorem write_vis (num : ℝ → Text) (st : RawState Sensed) (c : CamM ℚ) (l : List (Res Sensed)) :
    writeRaw num st (.ok (.cam c) :: l) = ((visOf num c).flatten ++ (writeRaw num st l).1, (writeRaw num st l).2) := by
  simp only [writeRaw, Sensed.meas, rawAdd, visOf]
  by_cases h : strIn "xxx" c.filename = true
  · simp [h]
  · simp [h, rawText]

private theorem compass_ok (num : ℝ → Text) (o : Orient ℚ) (hv : o.valid = true) (hw : Whole (.orient o)) :
    compassLine num o = .ok (orientationAcfr ⟨num (valOf o.epoch), num (valOf o.roll), num (valOf o.pitch), num (valOf o.yaw), num (valOf o.rollStd),
      num (valOf o.pitchStd), num (valOf o.yawStd)⟩) := by
  obtain ⟨e, r, p, y, rs, ps, ys, n⟩ := o
  simp only [Orient.valid, Bool.and_eq_true, Option.isSome_iff_exists] at hv
  obtain ⟨⟨⟨⟨r, rfl⟩, ⟨rs, rfl⟩⟩, ⟨y, rfl⟩⟩, ⟨e, rfl⟩⟩ := hv
  simp only [Whole, Option.isSome_iff_exists] at hw
  obtain ⟨⟨p, rfl⟩, ⟨ps, rfl⟩, ⟨ys, rfl⟩⟩ := hw
  simp [compassLine, floatText, bind, Except.bind, valOf]

private theorem usbl_ok (num : ℝ → Text) (u : UsblM ℚ) (hv : u.valid = true) (hw : Whole (.usbl u)) :
    usblRawLine num u = .ok (usblAcfr (num (valOf u.epoch)) (strText num u.northShip) (strText num u.eastShip) (num (valOf u.north)) (num (valOf u.east))
      (num (valOf u.depth)) (num (acfrRange (u.dist.map fun x : ℚ => (x : ℝ)) (valOf u.depth))) (strText num u.dist)
      (num (acfrBearing (valOf u.north) (valOf u.east)))) := by
  simp only [UsblM.valid, Bool.and_eq_true, Option.isSome_iff_exists] at hv
  obtain ⟨⟨⟨⟨-, -⟩, ⟨e, he⟩⟩, ⟨n, hn⟩⟩, ⟨t, ht⟩⟩ := hv
  simp only [Whole, Option.isSome_iff_exists] at hw
  obtain ⟨d, hd⟩ := hw
  simp [usblRawLine, he, hn, ht, hd, floatText, bind, Except.bind, valOf]

private theorem rdi_ok (num : ℝ → Text) (v : BodyVel ℚ) (a : AltM ℚ) (o : Orient ℚ) (t td : ℚ) (h1 : v.epoch = some t) (h2 : v.epochDvl = some td)
    (h3 : |t - td| < 1) (hv : v.valid = true) (hvw : Whole (.body v)) (ha : a.valid = true) (ho : o.valid = true) (hw : Whole (.orient o)) :
    rawText num (.rdi (objOf (.body v)) (objOf (.alt a)) (objOf (.orient o))) =
      .ok (velocityAcfr ⟨num (valOf v.epochDvl), num (valOf v.vx), num (valOf v.vy), num (valOf v.vz), [], [], []⟩
        ⟨[], num (valOf o.roll), num (valOf o.pitch), num (valOf o.yaw), [], [], []⟩ (num (valOf a.alt))) := by
  obtain ⟨e, r, p, y, rs, ps, ys, n⟩ := o
  simp only [Orient.valid, Bool.and_eq_true, Option.isSome_iff_exists] at ho
  obtain ⟨⟨⟨⟨r, rfl⟩, ⟨rs, rfl⟩⟩, ⟨y, rfl⟩⟩, ⟨e, rfl⟩⟩ := ho
  simp only [Whole, Option.isSome_iff_exists] at hw hvw
  obtain ⟨⟨p, rfl⟩, ⟨ps, rfl⟩, ⟨ys, rfl⟩⟩ := hw
  obtain ⟨z, hz⟩ := hvw
  simp only [AltM.valid, BodyVel.valid, Bool.and_eq_true, Option.isSome_iff_exists] at ha hv
  obtain ⟨⟨⟨al, hal⟩, -⟩, -⟩ := ha
  obtain ⟨⟨⟨⟨x, hx⟩, ⟨y', hy⟩⟩, -⟩, -⟩ := hv
  simp [objOf, sensedOf, h1, h2, h3, rawText, rdiLine, floatText, bind, Except.bind, valOf, hx, hy, hz, hal]

/-- Handing over the objects of one measurement. -/
private theorem write_meas (num : ℝ → Text) (st : RawState (Meas ℚ)) (hst : Held st) (m : Meas ℚ) (hv : m.Valid) (hw : Whole m)
    (l : List (Res Sensed)) :
    writeRaw num (objState st) ((sensedOf m).map .ok ++ l) =
      ((linesOf num m (rawAdd st (kindOf m)).2).flatten ++ (writeRaw num (objState (rawAdd st (kindOf m)).1) l).1,
        (writeRaw num (objState (rawAdd st (kindOf m)).1) l).2) ∧ Held (rawAdd st (kindOf m)).1 := by
  cases m with
  | body v =>
    have hv' : v.valid = true := hv
    simp only [BodyVel.valid, Bool.and_eq_true, Option.isSome_iff_exists] at hv'
    obtain ⟨⟨-, t, ht⟩, td, htd⟩ := hv'
    by_cases h : |t - td| < 1
    · have hs : sensedOf (.body v) = [objOf (.body v)] := by simp [objOf, sensedOf, ht, htd, h]
      have hk : kindOf (.body v) = .velocity (.body v) := by simp [kindOf, hs]
      have ho : objOf (.body v) = .body { v with epoch := some td, epochDvl := none, sensor := "unknown" } := by simp [objOf, sensedOf, ht, htd, h]
      rw [hs, hk]
      cases ha : st.alt with
      | none =>
        refine ⟨?_, ?_⟩
        · simp only [List.map_cons, List.map_nil, List.cons_append, List.nil_append, writeRaw, ho, Sensed.meas, rawAdd, objState, ha, Option.map_none,
            linesOf, List.flatten_nil]
        · simp only [rawAdd, ha]; exact hst
      | some am =>
        cases hb : st.ori with
        | none =>
          refine ⟨?_, ?_⟩
          · simp only [List.map_cons, List.map_nil, List.cons_append, List.nil_append, writeRaw, ho, Sensed.meas, rawAdd, objState, ha, hb,
              Option.map_none, Option.map_some, linesOf, List.flatten_nil]
          · simp only [rawAdd, ha, hb]; exact hst
        | some om =>
          obtain ⟨a, rfl, hav⟩ := hst.1 am ha
          obtain ⟨o, rfl, hov, how⟩ := hst.2 om hb
          have hr := rdi_ok num v a o t td ht htd h hv hw hav hov how
          refine ⟨?_, ?_⟩
          · have hr' := hr
            rw [ho] at hr'
            simp only [List.map_cons, List.map_nil, List.cons_append, List.nil_append, writeRaw, ho, Sensed.meas, rawAdd, objState, ha, hb,
              Option.map_some, linesOf, hr', List.flatten_cons, List.flatten_nil, List.append_nil, Option.map_none]
          · simp only [rawAdd, ha, hb]
            exact ⟨fun m (hm : none = some m) => (by cases hm), fun m (hm : none = some m) => (by cases hm)⟩
    · have hs : sensedOf (.body v) = [] := by simp [sensedOf, ht, htd, h]
      have hk : kindOf (.body v) = .ignored := by simp [kindOf, hs]
      rw [hs, hk]
      exact ⟨by simp [rawAdd, linesOf], hst⟩
  | inertial v =>
    refine ⟨?_, hst⟩
    simp [sensedOf, kindOf, rawAdd, linesOf, writeRaw, Sensed.meas]
  | orient o =>
    have hc := compass_ok num o hv hw
    have hc' : compassLine num { o with sensor := "unknown" } = compassLine num o := rfl
    refine ⟨?_, hst.1, fun m hm => ⟨o, ?_⟩⟩
    · simp only [sensedOf, List.map_cons, List.map_nil, List.cons_append, List.nil_append, writeRaw, Sensed.meas, rawAdd, rawText, hc', hc, kindOf, linesOf,
        List.flatten_cons, List.flatten_nil, List.append_nil, objState, objOf, Option.map_some, List.headD_cons]
    · simp only [kindOf, rawAdd, Option.some.injEq] at hm
      subst hm
      exact ⟨rfl, hv, hw⟩
  | depth d =>
    refine ⟨?_, hst⟩
    simp [sensedOf, kindOf, rawAdd, linesOf, writeRaw, Sensed.meas, rawText]
  | alt a =>
    refine ⟨?_, fun m hm => ⟨a, ?_⟩, hst.2⟩
    · simp [sensedOf, kindOf, rawAdd, linesOf, writeRaw, Sensed.meas, objState, objOf]
    · simp only [kindOf, rawAdd, Option.some.injEq] at hm
      subst hm
      exact ⟨rfl, hv⟩
  | usbl u =>
    have hc := usbl_ok num u hv hw
    have hc' : usblRawLine num { u with sensor := "unknown" } = usblRawLine num u := rfl
    refine ⟨?_, hst⟩
    simp only [sensedOf, List.map_cons, List.map_nil, List.cons_append, List.nil_append, writeRaw, Sensed.meas, rawAdd, rawText, hc', hc, kindOf, linesOf,
        List.flatten_cons, List.flatten_nil, List.append_nil]
  | cam c =>
    refine ⟨?_, hst⟩
    simp only [sensedOf, List.map_cons, List.map_nil, List.cons_append, List.nil_append, write_vis, kindOf, rawAdd, linesOf, List.flatten_append,
      List.append_assoc]
  | stereo l r n =>
    refine ⟨?_, hst⟩
    simp only [sensedOf, List.map_cons, List.map_nil, List.cons_append, List.nil_append, write_vis, kindOf, rawAdd, linesOf, List.flatten_append,
      List.append_assoc]

private theorem write_all (num : ℝ → Text) : ∀ (ms : List (Meas ℚ)) (st : RawState (Meas ℚ)), Held st → (∀ m ∈ ms, m.Valid ∧ Whole m) →
    writeRaw num (objState st) ((ms.flatMap sensedOf).map .ok) =
      ((List.zipWith (linesOf num) ms (rawRun st (ms.map kindOf))).flatten.flatten, none)
  | [], _, _, _ => rfl
  | m :: ms, st, hst, h => by
    obtain ⟨h1, h2⟩ := write_meas num st hst m (h m (by simp)).1 (h m (by simp)).2 ((ms.flatMap sensedOf).map .ok)
    rw [List.flatMap_cons, List.map_append, h1, write_all num ms _ h2 fun x hx => h x (List.mem_cons_of_mem _ hx)]
    simp only [List.map_cons, rawRun, List.zipWith_cons_cons, List.flatten_cons, List.flatten_append]

/-! ## The lines -/

private theorem raw_length {α : Type} (s : RawState α) (ms : List (RawMeas α)) : (rawRun s ms).length = ms.length := by
  induction ms generalizing s with
  | nil => rfl
  | cons m ms ih => simp [rawRun, ih]

/-- The lines of each measurement. -/
private noncomputable def outOf (num : ℝ → Text) (ms : List (Meas ℚ)) : List (List Text) :=
  List.zipWith (linesOf num) ms (rawRun {} (ms.map kindOf))

private theorem out_get (num : ℝ → Text) (ms : List (Meas ℚ)) (i : ℕ) (m : Meas ℚ) (h : ms[i]? = some m) :
    ∃ r, (rawRun {} (ms.map kindOf))[i]? = some r ∧ (outOf num ms)[i]? = some (linesOf num m r) := by
  have hi : i < ms.length := (List.getElem?_eq_some_iff.1 h).1
  have hi' : i < (rawRun {} (ms.map kindOf)).length := by rw [raw_length]; simpa using hi
  refine ⟨_, List.getElem?_eq_getElem hi', ?_⟩
  simp [outOf, List.getElem?_zipWith, h, List.getElem?_eq_getElem hi']

private theorem kind_alt (m x : Meas ℚ) (h : kindOf m = .altitude x) : m = x ∧ ∃ a, m = .alt a := by
  cases m with
  | body v =>
    simp only [kindOf] at h
    split_ifs at h
  | alt a =>
    simp only [kindOf, RawMeas.altitude.injEq] at h
    exact ⟨h, a, rfl⟩
  | _ => simp [kindOf] at h

private theorem kind_ori (m x : Meas ℚ) (h : kindOf m = .orientation x) : m = x ∧ ∃ a, m = .orient a := by
  cases m with
  | body v =>
    simp only [kindOf] at h
    split_ifs at h
  | orient a =>
    simp only [kindOf, RawMeas.orientation.injEq] at h
    exact ⟨h, a, rfl⟩
  | _ => simp [kindOf] at h

private theorem kind_vel (m x : Meas ℚ) (h : kindOf m = .velocity x) : m = x ∧ ∃ v, m = .body v ∧ InStep v := by
  cases m with
  | body v =>
    simp only [kindOf] at h
    split_ifs at h with h0
    simp only [RawMeas.velocity.injEq] at h
    refine ⟨h, v, rfl, ?_⟩
    unfold sensedOf at h0
    cases he : v.epoch with
    | none => simp [he] at h0
    | some t =>
      cases hd : v.epochDvl with
      | none => simp [he, hd] at h0
      | some td =>
        simp only [he, hd] at h0
        split_ifs at h0 with h1
        · exact ⟨t, td, he, hd, h1⟩
        · simp at h0
  | _ => simp [kindOf] at h

private theorem vel_kind (v : BodyVel ℚ) (h : InStep v) : kindOf (.body v) = .velocity (.body v) := by
  obtain ⟨t, td, h1, h2, h3⟩ := h
  simp [kindOf, sensedOf, h1, h2, h3]

/-- A record of a velocity gives one line with the right words. -/
private theorem rdi_line (num : ℝ → Text) (hw : ∀ x, IsWord (num x)) (ms : List (Meas ℚ)) (hms : ∀ m ∈ ms, m.Valid ∧ Whole m) (i : ℕ) (v a o : Meas ℚ)
    (h : (rawRun {} (ms.map kindOf))[i]? = some (some (.rdi v a o))) :
    ∃ v' a' o', v = .body v' ∧ a = .alt a' ∧ o = .orient o' ∧ ms[i]? = some (.body v') ∧ InStep v' ∧
      ∃ line, (outOf num ms)[i]? = some [line] ∧ LineIs line (rdiWords num v' a' o') := by
  obtain ⟨h1, ⟨j, -, hj, -⟩, ⟨k, -, hk, -⟩⟩ := (C26_rdi_iff _ i v a o).1 h
  rw [List.getElem?_map, Option.map_eq_some_iff] at h1 hj hk
  obtain ⟨mv, hv1, hv2⟩ := h1
  obtain ⟨ma, ha1, ha2⟩ := hj
  obtain ⟨mo, ho1, ho2⟩ := hk
  obtain ⟨rfl, v', rfl, hstep⟩ := kind_vel _ _ hv2
  obtain ⟨rfl, a', rfl⟩ := kind_alt _ _ ha2
  obtain ⟨rfl, o', rfl⟩ := kind_ori _ _ ho2
  have mv := hms _ (List.mem_of_getElem? hv1)
  have ma := hms _ (List.mem_of_getElem? ha1)
  have mo := hms _ (List.mem_of_getElem? ho1)
  obtain ⟨t, td, e1, e2, e3⟩ := id hstep
  have hr := rdi_ok num v' a' o' t td e1 e2 e3 mv.1 mv.2 ma.1 mo.1 mo.2
  obtain ⟨r, hr1, hr2⟩ := out_get num ms i _ hv1
  rw [h, Option.some.injEq] at hr1
  subst hr1
  simp only [linesOf, hr] at hr2
  refine ⟨v', a', o', rfl, rfl, rfl, hv1, hstep, _, hr2, ?_⟩
  exact velocity_is _ _ _ (by simp only [List.forall_mem_cons, List.not_mem_nil, false_imp_iff, implies_true, and_true]; exact ⟨hw _, hw _, hw _, hw _, hw _, hw _, hw _, hw _⟩)

private theorem rdi_iff (num : ℝ → Text) (hw : ∀ x, IsWord (num x)) (ms : List (Meas ℚ)) (hms : ∀ m ∈ ms, m.Valid ∧ Whole m) (k : ℕ) :
    VelocityLine ms (outOf num ms) k ↔ RdiAt (rawRun {} (ms.map kindOf)) k := by
  constructor
  · rintro ⟨⟨v, hv⟩, l, ls, hl⟩
    obtain ⟨r, hr1, hr2⟩ := out_get num ms k _ hv
    rw [hl, Option.some.injEq] at hr2
    cases r with
    | none => simp [linesOf] at hr2
    | some r =>
      cases r with
      | rdi v a o => exact ⟨v, a, o, hr1⟩
      | _ => simp [linesOf] at hr2
  · rintro ⟨v, a, o, h⟩
    obtain ⟨v', a', o', -, -, -, h1, -, line, h2, -⟩ := rdi_line num hw ms hms k v a o h
    exact ⟨⟨v', h1⟩, line, [], h2⟩

private theorem latest_iff (num : ℝ → Text) (hw : ∀ x, IsWord (num x)) (ms : List (Meas ℚ)) (hms : ∀ m ∈ ms, m.Valid ∧ Whole m) {β : Type}
    (kind : β → Meas ℚ) (mk : Meas ℚ → RawMeas (Meas ℚ)) (h1 : ∀ x, kindOf (kind x) = mk (kind x))
    (h2 : ∀ m y, kindOf m = mk y → m = y ∧ ∃ x, m = kind x) (i : ℕ) (x : β) :
    LatestMeas ms (outOf num ms) i kind x ↔ LatestSince (ms.map kindOf) (rawRun {} (ms.map kindOf)) i mk (kind x) := by
  have key : ∀ (k : ℕ) (y : Meas ℚ), (ms.map kindOf)[k]? = some (mk y) ↔ ∃ z, y = kind z ∧ ms[k]? = some (kind z) := by
    intro k y
    rw [List.getElem?_map, Option.map_eq_some_iff]
    constructor
    · rintro ⟨m, hm, hk⟩
      obtain ⟨rfl, z, rfl⟩ := h2 m y hk
      exact ⟨z, rfl, hm⟩
    · rintro ⟨z, rfl, hz⟩
      exact ⟨_, hz, h1 z⟩
  unfold LatestMeas LatestSince
  constructor
  · rintro ⟨j, hj, hx, hn, hr⟩
    refine ⟨j, hj, (key j _).2 ⟨x, rfl, hx⟩, ?_, fun k k1 k2 hc => hr k k1 k2 ((rdi_iff num hw ms hms k).2 hc)⟩
    intro k b k1 k2 hc
    obtain ⟨z, rfl, hz⟩ := (key k b).1 hc
    exact hn k z k1 k2 hz
  · rintro ⟨j, hj, hx, hn, hr⟩
    obtain ⟨z, hz, hz'⟩ := (key j _).1 hx
    refine ⟨j, hj, by rw [hz, hz'], ?_, fun k k1 k2 hc => hr k k1 k2 ((rdi_iff num hw ms hms k).1 hc)⟩
    intro k b k1 k2 hc
    exact hn k (kind b) k1 k2 ((key k _).2 ⟨b, rfl, hc⟩)

private theorem vis_lines (num : ℝ → Text) (hw : ∀ x, IsWord (num x)) (c : CamM ℚ) (hv : c.valid = true) (hf : IsWord c.filename.toList) :
    (visOf num { c with sensor := "unknown" }).map wordsOf = visWords num c ∧
      ∀ l ∈ visOf num { c with sensor := "unknown" }, ∃ w, l = w ++ ['\n'] ∧ '\n' ∉ w := by
  have hv' := hv
  simp only [CamM.valid, Bool.and_eq_true, Option.isSome_iff_exists] at hv'
  obtain ⟨-, t, ht⟩ := hv'
  have hl := vis_is num hw { c with sensor := "unknown" } t ht hf
  unfold visOf visWords
  by_cases hx : strIn "xxx" c.filename = true
  · simp only [hx, if_true]
    exact ⟨rfl, by simp⟩
  · simp only [hx, if_false, Bool.false_eq_true]
    refine ⟨by rw [List.map_cons, List.map_nil, hl.1], ?_⟩
    intro l hl'
    rw [List.mem_singleton.1 hl']
    exact hl.2

/-- Lines of a measurement that is neither a velocity nor a single image. -/
private theorem other_lines (num : ℝ → Text) (hw : ∀ x, IsWord (num x)) (m : Meas ℚ) (hv : m.Valid) (hm : Whole m) (h1 : ∀ v, m ≠ .body v)
    (h2 : ∀ c, m ≠ .cam c) (r : Option (RawOut (Meas ℚ))) :
    (linesOf num m r).map wordsOf = rawWords num m ∧ ∀ l ∈ linesOf num m r, ∃ w, l = w ++ ['\n'] ∧ '\n' ∉ w := by
  cases m with
  | body v => exact absurd rfl (h1 v)
  | cam c => exact absurd rfl (h2 c)
  | inertial v => exact ⟨rfl, by simp [linesOf]⟩
  | alt a => exact ⟨rfl, by simp [linesOf]⟩
  | orient o =>
    simp only [linesOf, compass_ok num o hv hm]
    have := compass_is ⟨num (valOf o.epoch), num (valOf o.roll), num (valOf o.pitch), num (valOf o.yaw), num (valOf o.rollStd),
      num (valOf o.pitchStd), num (valOf o.yawStd)⟩ (by
        simp only [List.forall_mem_cons, List.not_mem_nil, false_imp_iff, implies_true, and_true]
        exact ⟨hw _, hw _, hw _, hw _, hw _, hw _, hw _⟩)
    refine ⟨by rw [List.map_cons, List.map_nil, this.1]; rfl, ?_⟩
    intro l hl
    rw [List.mem_singleton.1 hl]
    exact this.2
  | depth d =>
    have hd := hv
    simp only [Meas.Valid, DepthM.valid, Bool.and_eq_true, Option.isSome_iff_exists] at hd
    obtain ⟨⟨⟨x, hx⟩, -⟩, ⟨t, ht⟩⟩ := hd
    have := depth_is (strText num d.depthTime) (strText num d.depth) (str_word num hw _) (str_word num hw _)
    refine ⟨?_, ?_⟩
    · simp only [linesOf, List.map_cons, List.map_nil, this.1, rawWords]
      simp [hx, ht, strText, valOf]
    · intro l hl
      simp only [linesOf, List.mem_singleton] at hl
      subst hl
      exact this.2
  | usbl u =>
    simp only [linesOf, usbl_ok num u hv hm]
    rw [ssbl_join]
    have := join_is _ (by simp) (ssbl_words (num (valOf u.epoch)) (strText num u.northShip) (strText num u.eastShip) (num (valOf u.north))
      (num (valOf u.east)) (num (valOf u.depth)) (num (acfrRange (u.dist.map fun x : ℚ => (x : ℝ)) (valOf u.depth))) (strText num u.dist)
      (num (acfrBearing (valOf u.north) (valOf u.east))) (by
        simp only [List.forall_mem_cons, List.not_mem_nil, false_imp_iff, implies_true, and_true]
        exact ⟨hw _, str_word num hw _, str_word num hw _, hw _, hw _, hw _, hw _, str_word num hw _, hw _⟩))
    refine ⟨by rw [List.map_cons, List.map_nil, this.1]; rfl, ?_⟩
    intro l hl
    rw [List.mem_singleton.1 hl]
    exact this.2
  | stereo l r' n =>
    obtain ⟨g1, g2⟩ := vis_lines num hw l hv.1 hm.1
    obtain ⟨g3, g4⟩ := vis_lines num hw r' hv.2 hm.2
    refine ⟨by simp only [linesOf, List.map_append, g1, g3]; rfl, ?_⟩
    intro x hx
    simp only [linesOf, List.mem_append] at hx
    exact hx.elim (g2 x) (g4 x)

private theorem out_spec (num : ℝ → Text) (hw : ∀ x, IsWord (num x)) (ms : List (Meas ℚ)) (hms : ∀ m ∈ ms, m.Valid ∧ Whole m ∧ ∀ c, m ≠ .cam c) :
    RawLines num ms (outOf num ms) := by
  have hms' : ∀ m ∈ ms, m.Valid ∧ Whole m := fun m hm => ⟨(hms m hm).1, (hms m hm).2.1⟩
  have la : ∀ (i : ℕ) (a : AltM ℚ), LatestMeas ms (outOf num ms) i .alt a ↔ LatestSince (ms.map kindOf) (rawRun {} (ms.map kindOf)) i .altitude (.alt a) :=
    fun i a => latest_iff num hw ms hms' .alt .altitude (fun _ => rfl) kind_alt i a
  have lo : ∀ (i : ℕ) (o : Orient ℚ), LatestMeas ms (outOf num ms) i .orient o ↔
      LatestSince (ms.map kindOf) (rawRun {} (ms.map kindOf)) i .orientation (.orient o) :=
    fun i o => latest_iff num hw ms hms' .orient .orientation (fun _ => rfl) kind_ori i o
  refine ⟨?_, ?_, ?_, ?_, ?_⟩
  · simp [outOf, raw_length]
  · intro ls hls
    obtain ⟨i, hi, rfl⟩ := List.mem_iff_getElem.1 hls
    have him : i < ms.length := by simpa [outOf, raw_length] using hi
    obtain ⟨r, hr1, hr2⟩ := out_get num ms i _ (List.getElem?_eq_getElem him)
    rw [List.getElem?_eq_getElem hi, Option.some.injEq] at hr2
    rw [hr2]
    have hm := hms _ (List.getElem_mem him)
    by_cases hb : ∃ v, ms[i] = .body v
    · obtain ⟨v, hv⟩ := hb
      intro l hl
      rw [hv] at hl
      cases r with
      | none => simp [linesOf] at hl
      | some r =>
        cases r with
        | rdi v' a o =>
          obtain ⟨v'', a', o', rfl, rfl, rfl, h1, -, line, h2, h3⟩ := rdi_line num hw ms hms' i v' a o hr1
          rw [List.getElem?_eq_getElem hi, hr2, hv, Option.some.injEq] at h2
          rw [h2, List.mem_singleton] at hl
          rw [hl]
          exact h3.2
        | _ => simp [linesOf] at hl
    · exact (other_lines num hw _ hm.1 hm.2.1 (fun v hv => hb ⟨v, hv⟩) hm.2.2 r).2
  · intro i m hm hb
    obtain ⟨r, hr1, hr2⟩ := out_get num ms i m hm
    have h := hms _ (List.mem_of_getElem? hm)
    exact ⟨_, hr2, (other_lines num hw m h.1 h.2.1 hb h.2.2 r).1⟩
  · intro i v a o hv hs ha ho
    have := (C26_rdi_iff (ms.map kindOf) i (.body v) (.alt a) (.orient o)).2
      ⟨by rw [List.getElem?_map, hv, Option.map_some, vel_kind v hs], (la i a).1 ha, (lo i o).1 ho⟩
    obtain ⟨v', a', o', h1, h2, h3, -, -, line, h4, h5⟩ := rdi_line num hw ms hms' i _ _ _ this
    cases h1; cases h2; cases h3
    exact ⟨line, h4, h5.1⟩
  · intro i v hv hn
    obtain ⟨r, hr1, hr2⟩ := out_get num ms i _ hv
    rw [hr2]
    cases r with
    | none => rfl
    | some r =>
      cases r with
      | rdi v' a o =>
        obtain ⟨v'', a', o', rfl, rfl, rfl, h1, h2, -⟩ := rdi_line num hw ms hms' i v' a o hr1
        rw [hv, Option.some.injEq, Meas.body.injEq] at h1
        subst h1
        obtain ⟨-, g1, g2⟩ := (C26_rdi_iff _ _ _ _ _).1 hr1
        exact absurd ⟨h2, ⟨a', (la i a').2 g1⟩, o', (lo i o').2 g2⟩ hn
      | _ => rfl

/-! ## The file -/

/-- nav_standard.json of measurements. -/
private theorem nav_sorted (n : ℕ) (o : Json ℚ) (rs : List (List Stamped)) (hok : ∀ r ∈ rs, ∀ e ∈ r, e.Ok n) :
    ∃ ms : List (Meas ℚ), ms.Perm (rs.flatten.map Prod.snd) ∧ ms.Pairwise (fun a b => NotLater a.time b.time) ∧
      parseNav o (rs.map returned) = .ok ((originRecord o).2 :: ms.map Meas.json) := by
  obtain ⟨l, h1, h2⟩ := diveFile_eq n o rs hok
  have hall : ∀ e ∈ l, Stamped.Ok n e := by
    intro e he
    obtain ⟨r, hr, her⟩ := List.mem_flatten.1 (h1.mem_iff.1 he)
    exact hok r hr e her
  refine ⟨l.map Prod.snd, h1.map _, ?_, ?_⟩
  · have h2' := h2
    unfold diveFile at h2'
    cases hr : readEntries (compileNav o (rs.map returned)) with
    | error e => rw [hr] at h2'; cases h2'
    | ok d =>
      rw [hr] at h2'
      simp only [bind, Except.bind] at h2'
      have hp := C13_same_entries _ _ h2'
      have hc := C13_chronological_partial n _ _ h2' (by
        intro e he
        rcases List.mem_cons.1 (hp.mem_iff.2 he) with rfl | he'
        · simp [originRecord, Spec.Stamp.WF]
        · obtain ⟨x, hx, rfl⟩ := List.mem_map.1 he'
          exact (hall x hx).2.1)
      rw [List.pairwise_cons, List.pairwise_map] at hc
      rw [List.pairwise_map]
      refine hc.2.imp_of_mem ?_
      intro a b ha hb hab
      exact ⟨_, _, (hall a ha).2.2, (hall b hb).2.2, hab⟩
  · have : parseNav o (rs.map returned) = (do let d ← diveFile o (rs.map returned); .ok (d.map Prod.snd)) := by
      unfold parseNav diveFile
      cases readEntries (compileNav o (rs.map returned)) with
      | error e => rfl
      | ok d => rfl
    rw [this, h2]
    simp only [bind, Except.bind, List.map_cons, List.map_map]
    rfl

private theorem meas_time (m : Meas ℚ) (t : ℚ) (h : m.time = some t) : (do let t ← m.json.at1 "epoch_timestamp"; reqNum t) = Except.ok (ε := Err) t := by
  have htime : m.json.at1 "epoch_timestamp" = .ok (some t) := by
    rw [← h]
    cases m <;>
      simp [Meas.json, Meas.time, BodyVel.toJson, InertialVel.toJson, Orient.toJson, DepthM.toJson,
        AltM.toJson, UsblM.toJson, CamM.toJson, stereoToJson, Json.at1, Json.key, bind, Except.bind, ofOpt_asNum]
  rw [htime]
  rfl

/-- The text of the file of measurements in order. -/
private theorem export_eq (num : ℝ → Text) (llStd : Option ℚ → Option ℚ → Option ℚ → Option ℚ → ℚ → ℚ → Res (Option ℚ × Option ℚ)) (o : Json ℚ)
    (ms : List (Meas ℚ)) (hne : ms ≠ []) (hv : ∀ m ∈ ms, m.Valid) (ht : ∀ m ∈ ms, ∃ t, m.time = some t)
    (hs : ms.Pairwise fun a b => NotLater a.time b.time) :
    exportRaw num llStd ((originRecord o).2 :: ms.map Meas.json) = writeRaw num {} ((ms.flatMap sensedOf).map .ok) := by
  obtain ⟨m, rest, rfl⟩ := List.exists_cons_of_ne_nil hne
  obtain ⟨a, ha⟩ := ht m (by simp)
  obtain ⟨b, hb⟩ := ht ((m :: rest).getLast hne) (List.getLast_mem _)
  have hwin : ∀ x ∈ m :: rest, InWindow a b x := by
    intro x hx
    obtain ⟨t, htx⟩ := ht x hx
    refine ⟨t, htx, ?_, ?_⟩
    · rcases List.mem_cons.1 hx with rfl | hx'
      · rw [ha, Option.some.injEq] at htx
        rw [htx]
      · obtain ⟨u, w, hu, hw, huw⟩ := (List.pairwise_cons.1 hs).1 x hx'
        rw [ha, Option.some.injEq] at hu
        rw [htx, Option.some.injEq] at hw
        rw [hu, hw]
        exact huw
    · have hl := List.dropLast_append_getLast hne
      rw [← hl] at hx
      rcases List.mem_append.1 hx with hx' | hx'
      · rw [← hl] at hs
        obtain ⟨u, w, hu, hw, huw⟩ := (List.pairwise_append.1 hs).2.2 x hx' _ (List.mem_singleton.2 rfl)
        rw [hb, Option.some.injEq] at hw
        rw [htx, Option.some.injEq] at hu
        rw [hu, hw]
        exact huw
      · rw [List.mem_singleton] at hx'
        rw [hx', hb, Option.some.injEq] at htx
        rw [htx]
  have hlast : ((originRecord o).2 :: (m :: rest).map Meas.json).getLast? = some ((m :: rest).getLast hne).json := by
    rw [List.getLast?_cons, List.getLast?_map, List.getLast?_eq_getLast_of_ne_nil hne]
    rfl
  have h1 : ((originRecord o).2 :: (m :: rest).map Meas.json)[1]? = some m.json := rfl
  unfold exportRaw
  rw [h1, hlast]
  simp only [meas_time m a ha, meas_time _ b hb]
  congr 1
  rw [List.flatMap_cons, origin_record, List.nil_append, List.flatMap_map, List.map_flatMap]
  have : ∀ l : List (Meas ℚ), (∀ x ∈ l, x ∈ m :: rest) → l.flatMap (fun x => recordSensed llStd a b x.json) = l.flatMap fun x => (sensedOf x).map .ok := by
    intro l
    induction l with
    | nil => exact fun _ => rfl
    | cons x l ih =>
      intro h
      rw [List.flatMap_cons, List.flatMap_cons, ih fun y hy => h y (List.mem_cons_of_mem _ hy),
        record_of llStd a b x (hv x (h x (by simp))) (hwin x (h x (by simp)))]
  exact this _ fun x hx => hx

/-- C240 (partial): from the measurements of a dive to the lines of combined.RAW.auv.  Every orientation, depth and fix and both images of
every pair have their line with all values behind the right names, in the order of time; a velocity has one exactly if there was an
altitude and an orientation since the last one, and it has the latest of them.
Missing: single images (see `C240_mono_false`) and measurements that lack a value (see `C240_stops_false`). -/
theorem C240_lines_partial (num : ℝ → Text) (hw : ∀ x, IsWord (num x))
    (llStd : Option ℚ → Option ℚ → Option ℚ → Option ℚ → ℚ → ℚ → Res (Option ℚ × Option ℚ)) (o : Json ℚ) (n : ℕ) (parsed : List (List Stamped))
    (hok : ∀ r ∈ parsed, ∀ e ∈ r, e.Ok n ∧ Whole e.2 ∧ ∀ c, e.2 ≠ .cam c) (hne : parsed.flatten ≠ []) :
    ∃ file ms out, parseNav o (parsed.map returned) = .ok file ∧ ms.Perm (parsed.flatten.map Prod.snd) ∧
      ms.Pairwise (fun a b => NotLater a.time b.time) ∧ exportRaw num llStd file = (out.flatten.flatten, none) ∧ RawLines num ms out := by
  obtain ⟨ms, h1, h2, h3⟩ := nav_sorted n o parsed fun r hr e he => (hok r hr e he).1
  have hall : ∀ m ∈ ms, ∃ s : Stamp, Stamped.Ok n (s, m) ∧ Whole m ∧ ∀ c, m ≠ .cam c := by
    intro m hm
    obtain ⟨e, he, rfl⟩ := List.mem_map.1 (h1.mem_iff.1 hm)
    obtain ⟨r, hr, her⟩ := List.mem_flatten.1 he
    exact ⟨e.1, hok r hr e her⟩
  have hms : ∀ m ∈ ms, m.Valid ∧ Whole m ∧ ∀ c, m ≠ .cam c := fun m hm => by
    obtain ⟨s, a, b⟩ := hall m hm
    exact ⟨a.1, b⟩
  refine ⟨_, ms, outOf num ms, h3, h1, h2, ?_, out_spec num hw ms hms⟩
  rw [export_eq num llStd o ms ?_ (fun m hm => (hms m hm).1) ?_ h2]
  · exact write_all num ms {} ⟨fun m (hm : none = some m) => (by cases hm), fun m (hm : none = some m) => (by cases hm)⟩
      fun m hm => ⟨(hms m hm).1, (hms m hm).2.1⟩
  · intro h0
    subst h0
    have := h1.symm.eq_nil
    simp only [List.map_eq_nil_iff] at this
    exact hne this
  · intro m hm
    obtain ⟨s, a, -⟩ := hall m hm
    exact ⟨_, a.2.2⟩

/-- The full property for images: every line with an image names one of the dive. -/
def ImagesNamed : Prop :=
  ∀ (num : ℝ → Text), (∀ x, IsWord (num x)) → ∀ (llStd : Option ℚ → Option ℚ → Option ℚ → Option ℚ → ℚ → ℚ → Res (Option ℚ × Option ℚ)) (o : Json ℚ)
    (n : ℕ) (parsed : List (List Stamped)), (∀ r ∈ parsed, ∀ e ∈ r, e.Ok n ∧ Whole e.2) → parsed.flatten ≠ [] →
    ∃ file ms out, parseNav o (parsed.map returned) = .ok file ∧ ms.Perm (parsed.flatten.map Prod.snd) ∧
      exportRaw num llStd file = (out.flatten.flatten, none) ∧ RawLines num ms out

private def monoDive : List (List Stamped) := [[(⟨[5], [0]⟩, .cam ⟨some 5, "a", "c"⟩)]]

/-- C240 is false of dives with one camera: behind the line of each image there is one of an image without name and time. -/
theorem C240_mono_false : ¬ ImagesNamed := by
  intro h
  have hword : IsWord ['1'] := ⟨by decide, by decide⟩
  have hok : ∀ r ∈ monoDive, ∀ e ∈ r, Stamped.Ok 1 e ∧ Whole e.2 := by
    simp only [monoDive, List.forall_mem_cons]
    norm_num [Stamped.Ok, Meas.Valid, Meas.time, CamM.valid, Spec.Stamp.WF, stampValue, intValue, fracValue, Whole]
    exact ⟨by decide, by decide, by decide⟩
  obtain ⟨file, ms, out, h1, h2, h3, h4⟩ := h (fun _ => ['1']) (fun _ => hword) (fun _ _ _ _ _ _ => .error .quit) .null 1 monoDive hok (by simp [monoDive])
  have hm : ms = [.cam ⟨some 5, "a", "c"⟩] := by
    have : monoDive.flatten.map Prod.snd = [.cam ⟨some 5, "a", "c"⟩] := rfl
    rw [this] at h2
    exact List.perm_singleton.1 h2
  subst hm
  obtain ⟨ms', g1, g2, g3⟩ := nav_sorted 1 .null monoDive fun r hr e he => (hok r hr e he).1
  have hm' : ms' = [.cam ⟨some 5, "a", "c"⟩] := by
    have : monoDive.flatten.map Prod.snd = [.cam ⟨some 5, "a", "c"⟩] := rfl
    rw [this] at g1
    exact List.perm_singleton.1 g1
  subst hm'
  rw [g3, Except.ok.injEq] at h1
  subst h1
  rw [export_eq _ _ _ _ (by simp) (by simp [Meas.Valid, CamM.valid]) (by simp [Meas.time]) (by simp)] at h3
  simp only [List.flatMap_cons, List.flatMap_nil, List.append_nil, sensedOf, List.map_cons, List.map_nil, write_vis] at h3
  obtain ⟨ls, e1, e2⟩ := h4.others 0 _ rfl (by simp)
  have hlen := h4.length
  match out, hlen, e1 with
  | [ls'], _, e1 =>
    simp only [List.getElem?_cons_zero, Option.some.injEq] at e1
    subst e1
    simp only [List.flatten_cons, List.flatten_nil, List.append_nil, writeRaw, Prod.mk.injEq, and_true] at h3
    have hx : strIn "xxx" "a" = false := by decide +kernel
    have hx' : strIn "xxx" "" = false := by decide +kernel
    simp only [rawWords, visWords, hx, Bool.false_eq_true, if_false] at e2
    obtain ⟨l, hl, hl2⟩ := List.map_eq_singleton_iff.1 e2
    subst hl
    obtain ⟨w, hw1, hw2⟩ := h4.lines [l] (by simp) l (by simp)
    simp only [visOf, hx, hx', Bool.false_eq_true, if_false, List.flatten_cons, List.flatten_nil, List.append_nil] at h3
    subst hw1
    have hc : (w ++ ['\n']).count '\n' = 1 := by
      rw [List.count_append, List.count_eq_zero_of_not_mem hw2]
      rfl
    rw [← h3] at hc
    revert hc
    decide +kernel

/-- The full property: the file of a dive is written to its end. -/
def ExportEnds : Prop :=
  ∀ (num : ℝ → Text) (llStd : Option ℚ → Option ℚ → Option ℚ → Option ℚ → ℚ → ℚ → Res (Option ℚ × Option ℚ)) (o : Json ℚ) (n : ℕ)
    (parsed : List (List Stamped)) (file : List (Json ℚ)), (∀ r ∈ parsed, ∀ e ∈ r, e.Ok n) → parsed.flatten ≠ [] →
    parseNav o (parsed.map returned) = .ok file → (exportRaw num llStd file).2 = none

private def shallow : Meas ℚ := .usbl { epoch := some 5, lat := some 1, lon := some 1, north := some 1, east := some 1 }

/-- C240 is false of a dive with a fix without depth, which `auv_nav parse` writes as a valid measurement: it ends the export. -/
theorem C240_stops_false : ¬ ExportEnds := by
  intro h
  have hok : ∀ r ∈ [[((⟨[5], [0]⟩, shallow) : Stamped)]], ∀ e ∈ r, Stamped.Ok 1 e := by
    simp only [List.forall_mem_cons, shallow]
    norm_num [Stamped.Ok, Meas.Valid, Meas.time, UsblM.valid, Spec.Stamp.WF, stampValue, intValue, fracValue]
  obtain ⟨ms, g1, g2, g3⟩ := nav_sorted 1 .null [[((⟨[5], [0]⟩, shallow) : Stamped)]] hok
  have hm' : ms = [shallow] := by
    have : [[((⟨[5], [0]⟩, shallow) : Stamped)]].flatten.map Prod.snd = [shallow] := rfl
    rw [this] at g1
    exact List.perm_singleton.1 g1
  subst hm'
  have := h (fun _ => ['1']) (fun _ _ _ _ _ _ => .error .quit) .null 1 _ _ hok (by simp) g3
  rw [export_eq _ _ _ _ (by simp) (by simp [shallow, Meas.Valid, UsblM.valid]) (by simp [shallow, Meas.time]) (by simp)] at this
  simp [shallow, sensedOf, writeRaw, Sensed.meas, rawAdd, rawText, usblRawLine] at this

/-- The hypotheses are met: an orientation, an altitude and a velocity. -/
private def smallDive : List (List Stamped) :=
  [[(⟨[5], [0]⟩, .orient ⟨some 5, some 1, some 2, some 3, some 1, some 1, some 1, "phins"⟩)],
    [(⟨[6], [0]⟩, .alt ⟨some 6, some 6, some 2, none, none, none, "dvl"⟩), (⟨[7], [0]⟩, .body ⟨some 7, some 7, some 1, some 0, some 0, none, none, none, "dvl"⟩)],
    [(⟨[8], [0]⟩, .stereo ⟨some 8, "a", "c"⟩ ⟨some 8, "b", "c"⟩ "c")]]

example : (∀ r ∈ smallDive, ∀ e ∈ r, Stamped.Ok 1 e ∧ Whole e.2 ∧ ∀ c, e.2 ≠ .cam c) ∧ smallDive.flatten ≠ [] ∧
    LatestMeas (smallDive.flatten.map Prod.snd) [[], [], [['x']], []] 2 .alt ⟨some 6, some 6, some 2, none, none, none, "dvl"⟩ := by
  refine ⟨?_, by simp [smallDive], ?_⟩
  · simp only [List.forall_mem_cons, smallDive]
    norm_num [Stamped.Ok, Meas.Valid, Meas.time, CamM.valid, Orient.valid, AltM.valid, BodyVel.valid, Spec.Stamp.WF, stampValue, intValue, fracValue, Whole]
    have ha : IsWord "a".toList := ⟨by decide, by decide⟩
    have hb : IsWord "b".toList := ⟨by decide, by decide⟩
    exact ⟨fun _ h => (by cases h), ⟨fun _ h => (by cases h), fun _ h => (by cases h)⟩, ⟨by decide, by decide⟩, ⟨ha, hb⟩, fun _ h => (by cases h)⟩
  · exact ⟨1, by omega, rfl, fun k b h1 h2 => by omega, fun k h1 h2 => by omega⟩

end Oplab.Props
