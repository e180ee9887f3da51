import Verif.Spec.ProcessImage
import Mathlib.Tactic.NormNum
import Mathlib.Tactic.Ring
import Mathlib.Tactic.IntervalCases

/-!
C201: the corrections applied to an image are the ones configured.
-/

namespace Oplab.Props
open Oplab Oplab.Spec

private theorem chan_mapAt {α β : Type} (f : ℕ → ℕ → α → β) (im : Img α) (ch k : ℕ) :
    chan (im.mapAt f) ch k = (chan im ch k).map (f ch k) := by
  cases im with
  | grey px =>
    by_cases h : ch = 0
    · subst h; simp [chan, Img.mapAt]
    · simp [chan, h, Img.mapAt]
  | colour px =>
    simp only [chan, Img.mapAt, List.getElem?_mapIdx]
    cases px[k]? with
    | none => rfl
    | some v =>
      simp only [Option.map_some, Option.bind_some]
      split_ifs <;> simp_all

private theorem mem_values {α : Type} (im : Img α) (v : α) : v ∈ im.values ↔ ∃ ch k, chan im ch k = some v := by
  cases im with
  | grey px =>
    simp only [Img.values, chan, List.mem_iff_getElem?]
    constructor
    · rintro ⟨k, h⟩; exact ⟨0, k, by simpa using h⟩
    · rintro ⟨ch, k, h⟩
      split_ifs at h
      exact ⟨k, h⟩
  | colour px =>
    simp only [Img.values, chan, List.mem_flatMap, List.mem_cons, List.not_mem_nil, or_false]
    simp only [List.mem_iff_getElem?]
    constructor
    · rintro ⟨w, ⟨k, hk⟩, rfl | rfl | rfl⟩
      · exact ⟨0, k, by simp [hk]⟩
      · exact ⟨1, k, by simp [hk]⟩
      · exact ⟨2, k, by simp [hk]⟩
    · rintro ⟨ch, k, h⟩
      cases hk : px[k]? with
      | none => simp [hk] at h
      | some w =>
        simp only [hk, Option.bind_some] at h
        refine ⟨w, ⟨k, hk⟩, ?_⟩
        split_ifs at h <;> simp_all

private theorem chan_normalise (s : CorrSetup) (d : Option (ℕ → ℝ)) (im : Img ℝ) (ch k : ℕ) :
    chan (normaliseImage s d im) ch k = (chan im ch k).map (corrected s d ch k) := by
  cases d with
  | none => rw [normaliseImage, chan_mapAt]; rfl
  | some d => rw [normaliseImage, chan_mapAt, chan_mapAt, Option.map_map]; rfl

private theorem chan_swap {α : Type} (px : List (V3 α)) (ch k : ℕ) (h : ch < 3) :
    chan (.colour (px.map swapChannels)) ch k = chan (.colour px) (2 - ch) k := by
  simp only [chan, List.getElem?_map]
  cases px[k]? with
  | none => rfl
  | some v =>
    simp only [Option.map_some, Option.bind_some, swapChannels]
    interval_cases ch <;> simp

private theorem pyGet_nat' {α : Type} (l : List α) (i : ℕ) : pyGet l (i : ℤ) = match l[i]? with
    | some a => .ok a
    | none => .error .indexError := by
  simp only [pyGet]
  rw [if_neg (by omega : ¬ (i : ℤ) < 0), if_neg (by omega), Int.toNat_natCast]
  cases l[i]? <;> rfl

private theorem distanceOf_iff (s : CorrSetup) (idx : ℕ) (d : Option (ℕ → ℝ)) :
    distanceOf s idx = .ok d ↔ DistanceOf s idx d := by
  unfold distanceOf DistanceOf
  by_cases h1 : s.metric = "depth_map"
  · rw [if_pos h1]
    cases h : s.depthMaps[idx]? with
    | none => simp [pyGet_nat', h, h1, bind, Except.bind]
    | some m => simp [pyGet_nat', h, h1, bind, Except.bind, eq_comm]
  · rw [if_neg h1]
    by_cases h2 : s.metric = "altitude"
    · rw [if_pos h2]
      by_cases h3 : idx < s.altitudes.length
      · rw [if_neg (by omega)]
        simp [pyGet_nat', h2, bind, Except.bind, List.getElem?_eq_getElem h3, eq_comm]
      · rw [if_pos (by omega)]
        simp [h2, List.getElem?_eq_none (not_lt.mp h3)]
    · rw [if_neg h2]
      simp [h1, h2, eq_comm]

/-- Every value of every channel of the output of a colour correction, for images that need no change of channels. -/
private theorem colour_out (s : CorrSetup) (d : Option (ℕ → ℝ)) (im im' : Img ℝ) (idx : ℕ)
    (hm : s.method = "colour_correction") (hd : DistanceOf s idx d)
    (hc : colourChannels s (normaliseImage s d im) = .ok im') :
    ∃ out, processImage s none idx im = .ok out ∧ ∀ ch k, chan out ch k = (chan im' ch k).map fun v =>
      eightBit (gammaCurve (∀ c j w, chan im' c j = some w → w < 0.0031308) v) := by
  refine ⟨_, by simp [processImage, hm, (distanceOf_iff s idx d).mpr hd, hc, bind, Except.bind]; rfl, ?_⟩
  intro ch k
  rw [chan_mapAt, gammaImage, chan_mapAt, Option.map_map]
  congr 1
  funext v
  have hdark : gammaDark im'.values = (∀ c j w, chan im' c j = some w → w < 0.0031308) := by
    rw [gammaDark, eq_iff_iff]
    simp only [mem_values]
    exact ⟨fun h c j w e => h w ⟨c, j, e⟩, fun h w ⟨c, j, e⟩ => h c j w e⟩
  simp only [Function.comp_def, hdark]
  rfl

/-- C201: every channel of every pixel of a grey image (of a camera of type `grayscale`) or an image of type `bgr` is
corrected for its own distance, with the parameters of the same channel and pixel, then follow the gamma curve and the
rounding to 8 bits. -/
theorem C201_colour_partial (s : CorrSetup) (d : Option (ℕ → ℝ)) (im : Img ℝ) (idx : ℕ)
    (hm : s.method = "colour_correction") (ht : s.type = "bgr" ∨ s.type = "grayscale") (hd : DistanceOf s idx d) :
    ∃ out, processImage s none idx im = .ok out ∧ ∀ ch k, chan out ch k = (chan im ch k).map fun v =>
      eightBit (gammaCurve (∀ c j w, chan im c j = some w → corrected s d c j w < 0.0031308) (corrected s d ch k v)) := by
  have hc : colourChannels s (normaliseImage s d im) = .ok (normaliseImage s d im) := by
    rcases ht with h | h <;> simp [colourChannels, h]
  obtain ⟨out, h1, h2⟩ := colour_out s d im _ idx hm hd hc
  refine ⟨out, h1, fun ch k => ?_⟩
  rw [h2, chan_normalise, Option.map_map]
  congr 1
  funext v
  simp only [Function.comp_def, chan_normalise, Option.map_eq_some_iff, forall_exists_index, and_imp]
  congr 2
  rw [eq_iff_iff]
  exact ⟨fun h c j w e => h c j _ w e rfl, fun h c j w x e e' => e' ▸ h c j x e⟩

/-- C201: images of cameras of type `rgb` come out with red and blue exchanged: the red of the output is the blue of the
input, corrected with the parameters of blue, and the other way round. -/
theorem C201_rgb_false (s : CorrSetup) (d : Option (ℕ → ℝ)) (px : List (V3 ℝ)) (idx : ℕ)
    (hm : s.method = "colour_correction") (ht : s.type = "rgb") (hd : DistanceOf s idx d) :
    ∃ out, processImage s none idx (.colour px) = .ok out ∧ ∀ ch k, ch < 3 → chan out ch k =
      (chan (.colour px) (2 - ch) k).map fun v => eightBit
        (gammaCurve (∀ c j w, c < 3 → chan (.colour px) c j = some w → corrected s d c j w < 0.0031308)
          (corrected s d (2 - ch) k v)) := by
  obtain ⟨qx, hq⟩ : ∃ qx, normaliseImage s d (.colour px) = .colour qx := by
    cases d <;> exact ⟨_, rfl⟩
  have hc : colourChannels s (normaliseImage s d (.colour px)) = .ok (.colour (qx.map swapChannels)) := by
    simp [colourChannels, ht, hq, swapImage]
  obtain ⟨out, h1, h2⟩ := colour_out s d _ _ idx hm hd hc
  refine ⟨out, h1, fun ch k h3 => ?_⟩
  rw [h2, chan_swap _ _ _ h3, ← hq, chan_normalise, Option.map_map]
  congr 1
  funext v
  simp only [Function.comp_def]
  congr 2
  rw [eq_iff_iff]
  constructor
  · intro h c j w hc e
    apply h (2 - c) j
    rw [chan_swap _ _ _ (by omega), ← hq, chan_normalise, show 2 - (2 - c) = c by omega, e]
    rfl
  · intro h c j w e
    have hc3 : c < 3 := by
      by_contra hcon
      simp only [chan] at e
      cases hk : (qx.map swapChannels)[j]? with
      | none => simp [hk] at e
      | some y =>
        simp only [hk, Option.bind_some] at e
        split_ifs at e <;> omega
    rw [chan_swap _ _ _ hc3, ← hq, chan_normalise, Option.map_eq_some_iff] at e
    obtain ⟨x, e1, e2⟩ := e
    rw [← e2]
    exact h (2 - c) j x (by omega) e1

/-- C201: the images of cameras with a Bayer pattern are corrected before they are converted to colours. -/
theorem C201_bayer (s : CorrSetup) (d : Option (ℕ → ℝ)) (px : List ℝ) (idx : ℕ) (code : BayerCode)
    (hm : s.method = "colour_correction") (ht : bayerCode s.type = .ok code) (hd : DistanceOf s idx d) :
    ∃ out, processImage s none idx (.grey px) = .ok out ∧
      let rgb := (s.cv code (px.mapIdx fun k v => ⌊min (max (corrected s d 0 k v * 65535) 0) 65535⌋₊)).map
        fun v => (⟨v.x / 65536, v.y / 65536, v.z / 65536⟩ : V3 ℝ)
      ∀ ch k, chan out ch k = (chan (.colour rgb) ch k).map fun v =>
        eightBit (gammaCurve (∀ c j w, chan (.colour rgb) c j = some w → w < 0.0031308) v) := by
  have ht' : s.type ≠ "grayscale" ∧ s.type ≠ "rgb" ∧ s.type ≠ "bgr" := by
    refine ⟨?_, ?_, ?_⟩ <;> intro h <;> rw [h] at ht <;> simp [bayerCode] at ht
  have hn : normaliseImage s d (.grey px) = .grey (px.mapIdx fun k v => corrected s d 0 k v) := by
    cases d with
    | none => rfl
    | some d =>
      simp only [normaliseImage, Img.mapAt, List.mapIdx_mapIdx]
      rfl
  have hc : colourChannels s (normaliseImage s d (.grey px)) = .ok (.colour
      ((s.cv code (px.mapIdx fun k v => ⌊min (max (corrected s d 0 k v * 65535) 0) 65535⌋₊)).map
        fun v => (⟨v.x / 65536, v.y / 65536, v.z / 65536⟩ : V3 ℝ))) := by
    rw [hn, colourChannels, if_pos ht', debayerImg, ht]
    simp only [bind, Except.bind]
    congr 2
    have e1 : ∀ v : ℝ, (toUint16 v : ℕ) = ⌊min (max (v * 65535) 0) 65535⌋₊ := by
      intro v; rw [toUint16]; norm_num
    have e2 : ∀ n : ℕ, (fromUint16 n : ℝ) = n / 65536 := by
      intro n; rw [fromUint16]; norm_num; ring
    have e3 : (px.mapIdx fun k v => corrected s d 0 k v).map toUint16 =
        px.mapIdx fun k v => ⌊min (max (corrected s d 0 k v * 65535) 0) 65535⌋₊ := by
      apply List.ext_getElem (by simp)
      intro i h1 h2
      simp [e1]
    simp only [e3, e2]
  exact colour_out s d _ _ idx hm hd hc

/-- C201: an image for which no distance is listed ends the run; there is no other dependence on the list. -/
theorem C201_distance_iff (s : CorrSetup) (remap : Option (Img ℝ → Img ℝ)) (im : Img ℝ) (idx : ℕ)
    (hm : s.method = "colour_correction") (ht : s.type = "bgr" ∨ s.type = "grayscale") :
    (∃ out, processImage s remap idx im = .ok out) ↔ ∃ d, DistanceOf s idx d := by
  constructor
  · rintro ⟨out, h⟩
    simp only [processImage, hm, if_true, bind, Except.bind] at h
    cases hd : distanceOf s idx with
    | error e => simp [hd] at h
    | ok d => exact ⟨d, (distanceOf_iff s idx d).mp hd⟩
  · rintro ⟨d, hd⟩
    have hc : ∀ i, colourChannels s i = .ok i := by
      intro i
      rcases ht with h | h <;> simp [colourChannels, h]
    exact ⟨_, by simp [processImage, hm, (distanceOf_iff s idx d).mpr hd, hc, bind, Except.bind]; rfl⟩

/-- C201: the manual balance of images of type `bgr` acts on red, green and blue as they are in the file. -/
theorem C201_balance_partial (s : CorrSetup) (idx : ℕ) (px : List (V3 ℝ)) (hm : s.method = "manual_balance")
    (ht : s.type = "bgr") : ∃ out, processImage s none idx (.colour px) = .ok out ∧
      ∀ k, (chan out 0 k = (px[k]?).map fun v => eightBit (s.m0.x * (v.x - s.subtractors.x) + s.m0.y * (v.y - s.subtractors.y) + s.m0.z * (v.z - s.subtractors.z))) ∧
        (chan out 1 k = (px[k]?).map fun v => eightBit (s.m1.x * (v.x - s.subtractors.x) + s.m1.y * (v.y - s.subtractors.y) + s.m1.z * (v.z - s.subtractors.z))) ∧
        (chan out 2 k = (px[k]?).map fun v => eightBit (s.m2.x * (v.x - s.subtractors.x) + s.m2.y * (v.y - s.subtractors.y) + s.m2.z * (v.z - s.subtractors.z))) := by
  refine ⟨_, by simp [processImage, hm, ht, balanceChannels, bind, Except.bind]; rfl, ?_⟩
  intro k
  simp only [chan_mapAt, balanceImage]
  simp only [chan, List.getElem?_map]
  cases px[k]? with
  | none => simp
  | some v => refine ⟨?_, ?_, ?_⟩ <;> simp [manualBalance, toUint8, eightBit, clip]

/-- C201: for type `rgb` the gains and offsets of red are applied to blue, and the result is stored as red. -/
theorem C201_balance_rgb_false (s : CorrSetup) (idx : ℕ) (px : List (V3 ℝ)) (hm : s.method = "manual_balance")
    (ht : s.type = "rgb") : ∃ out, processImage s none idx (.colour px) = .ok out ∧
      ∀ k, (chan out 0 k = (px[k]?).map fun v => eightBit (s.m0.x * (v.z - s.subtractors.x) + s.m0.y * (v.y - s.subtractors.y) + s.m0.z * (v.x - s.subtractors.z))) ∧
        (chan out 1 k = (px[k]?).map fun v => eightBit (s.m1.x * (v.z - s.subtractors.x) + s.m1.y * (v.y - s.subtractors.y) + s.m1.z * (v.x - s.subtractors.z))) ∧
        (chan out 2 k = (px[k]?).map fun v => eightBit (s.m2.x * (v.z - s.subtractors.x) + s.m2.y * (v.y - s.subtractors.y) + s.m2.z * (v.x - s.subtractors.z))) := by
  refine ⟨_, by simp [processImage, hm, ht, balanceChannels, swapImage, bind, Except.bind]; rfl, ?_⟩
  intro k
  simp only [chan_mapAt, balanceImage]
  simp only [chan, List.getElem?_map]
  cases px[k]? with
  | none => simp
  | some v => refine ⟨?_, ?_, ?_⟩ <;> simp [manualBalance, swapChannels, toUint8, eightBit, clip]

/-- C201: with manual balance the images of cameras with a Bayer pattern are converted to colours first (of the values in 16 bits). -/
theorem C201_balance_bayer (s : CorrSetup) (idx : ℕ) (px : List ℝ) (code : BayerCode) (hm : s.method = "manual_balance")
    (ht : bayerCode s.type = .ok code) : ∃ out, processImage s none idx (.grey px) = .ok out ∧
      ∀ k, let p := ((s.cv code (px.map fun v => ⌊min (max (v * 65535) 0) 65535⌋₊))[k]?).map fun v =>
          (⟨v.x / 65536, v.y / 65536, v.z / 65536⟩ : V3 ℝ)
        (chan out 0 k = p.map fun v => eightBit (s.m0.x * (v.x - s.subtractors.x) + s.m0.y * (v.y - s.subtractors.y) + s.m0.z * (v.z - s.subtractors.z))) ∧
        (chan out 1 k = p.map fun v => eightBit (s.m1.x * (v.x - s.subtractors.x) + s.m1.y * (v.y - s.subtractors.y) + s.m1.z * (v.z - s.subtractors.z))) ∧
        (chan out 2 k = p.map fun v => eightBit (s.m2.x * (v.x - s.subtractors.x) + s.m2.y * (v.y - s.subtractors.y) + s.m2.z * (v.z - s.subtractors.z))) := by
  have ht' : s.type ≠ "grayscale" ∧ s.type ≠ "rgb" ∧ s.type ≠ "bgr" := by
    refine ⟨?_, ?_, ?_⟩ <;> intro h <;> rw [h] at ht <;> simp [bayerCode] at ht
  have e1 : ∀ v : ℝ, (toUint16 v : ℕ) = ⌊min (max (v * 65535) 0) 65535⌋₊ := by
    intro v; rw [toUint16]; norm_num
  have e2 : ∀ n : ℕ, (fromUint16 n : ℝ) = n / 65536 := by
    intro n; rw [fromUint16]; norm_num; ring
  have e3 : px.map toUint16 = px.map fun v => ⌊min (max (v * 65535) 0) 65535⌋₊ := List.map_congr_left fun v _ => e1 v
  have hb : balanceChannels s (.grey px) = .ok (.colour ((s.cv code (px.map fun v => ⌊min (max (v * 65535) 0) 65535⌋₊)).map
      fun v => (⟨v.x / 65536, v.y / 65536, v.z / 65536⟩ : V3 ℝ))) := by
    rw [balanceChannels, if_pos ht', debayerImg, ht]
    simp only [bind, Except.bind, e3, e2]
  have hne : ¬ "manual_balance" = "colour_correction" := by decide
  refine ⟨_, by simp only [processImage, hm, if_neg hne, if_true, hb, bind, Except.bind]; rfl, ?_⟩
  intro k
  simp only [chan_mapAt, balanceImage]
  simp only [chan, List.getElem?_map]
  cases (s.cv code (px.map fun v => ⌊min (max (v * 65535) 0) 65535⌋₊))[k]? with
  | none => simp
  | some v => refine ⟨?_, ?_, ?_⟩ <;> simp [manualBalance, toUint8, eightBit, clip]

/-- C201: with manual balance grey images cannot be processed. -/
theorem C201_balance_grey_false (s : CorrSetup) (idx : ℕ) (px : List ℝ) (hm : s.method = "manual_balance") (ht : s.type = "grayscale") :
    processImage s none idx (.grey px) = .error .indexError := by
  simp [processImage, hm, ht, balanceChannels, swapImage, bind, Except.bind]

/-- Settings for the examples. -/
private noncomputable def setup0 (method type : String) : CorrSetup :=
  { method := method, metric := "altitude", type := type, altitudes := [2, 3], depthMaps := [],
    stats := fun _ _ => ⟨1, -1, 0, 1, 1 / 2, 1 / 4, 1 / 2, 1 / 4⟩, brightness := 30, contrast := 10,
    m0 := ⟨1, 0, 0⟩, m1 := ⟨0, 1, 0⟩, m2 := ⟨0, 0, 1⟩, subtractors := ⟨0, 0, 0⟩, cv := fun _ l => l.map fun n => ⟨n, n, n⟩ }

/-- C201: not in general: images of type `rgb` do not keep their colours. -/
theorem C201_colours_false : ¬ KeepsColours := by
  intro h
  obtain ⟨out, h1, h2⟩ := h (setup0 "manual_balance" "rgb") 0 [⟨1, 0, 0⟩] rfl (Or.inl rfl) rfl rfl rfl rfl
  obtain ⟨out', h3, h4⟩ := C201_balance_rgb_false (setup0 "manual_balance" "rgb") 0 [⟨1, 0, 0⟩] rfl rfl
  rw [h1] at h3
  cases h3
  have e := h2 0 0
  rw [(h4 0).1] at e
  simp [chan, setup0, eightBit] at e

/-- C201: the distortion is corrected exactly if it is requested and a file with the name `mono` directly followed by
the name of the camera exists in the folder `calibration` beside the dive. -/
theorem C201_undistort_iff {F : Type} (requested : Bool) (files : List String → Option F) (processed : List String)
    (camera : String) (f : F) : chooseRemap requested files processed camera = some f ↔
      requested = true ∧ files (processed.dropLast ++ ["calibration", "mono" ++ camera ++ ".yaml"]) = some f := by
  cases requested <;> simp [chooseRemap, undistortFile]

/-- C201: not in general: the calibrations of `auv_cal` are never found. The file looked for is not that of the camera,
whatever the name of the camera; with no other file, the request is ignored. -/
theorem C201_undistort_false : ¬ UndistortsWhenCalibrated ∧
    (∀ processed camera, undistortFile processed camera ≠ processed.dropLast ++ ["calibration", monoFile camera ".yaml"]) := by
  have hne : ∀ camera : String, "mono" ++ camera ++ ".yaml" ≠ "mono_" ++ camera ++ ".yaml" := by
    intro camera e
    have := congrArg String.length e
    simp only [String.length_append] at this
    have h1 : ("mono" : String).length = 4 := by decide +kernel
    have h2 : ("mono_" : String).length = 5 := by decide +kernel
    omega
  refine ⟨fun h => ?_, fun processed camera e => ?_⟩
  · have := h ℕ (fun p => if p = ["calibration", "mono_" ++ "LC" ++ ".yaml"] then some 1 else none) ["dive"] "LC" 1 (by simp)
    rw [C201_undistort_iff] at this
    have e := this.2
    simp only [List.dropLast_singleton, List.nil_append, List.cons.injEq, and_true, true_and] at e
    rw [if_neg (hne "LC")] at e
    simp at e
  · simp only [undistortFile, monoFile, List.append_cancel_left_eq, List.cons.injEq, and_true, true_and] at e
    exact hne camera e

private theorem mapM_id_ok {α : Type} : ∀ (l : List (Res α)) (outs : List α), l.mapM id = .ok outs ↔ l = outs.map .ok
  | [], outs => by cases outs <;> simp [pure, Except.pure]
  | x :: xs, outs => by
    rw [List.mapM_cons]
    cases x with
    | error e => cases outs <;> simp [bind, Except.bind]
    | ok a =>
      cases hx : xs.mapM id with
      | error e =>
        simp only [bind, Except.bind, id, hx]
        cases outs with
        | nil => simp
        | cons b outs =>
          have := mapM_id_ok xs outs
          rw [hx] at this
          simp only [reduceCtorEq, false_iff] at this
          simp [this]
      | ok ys =>
        have := mapM_id_ok xs
        cases outs with
        | nil => simp [bind, Except.bind, hx, pure, Except.pure]
        | cons b outs =>
          have h' := mapM_id_ok xs outs
          rw [hx] at h'
          simp only [Except.ok.injEq] at h'
          simp [bind, Except.bind, hx, pure, Except.pure, ← h']

/-- C201: a run gives one result for each image, in the order of the list, each from its own image and distance; if it
ends well, no image has failed. -/
theorem C201_run (s : CorrSetup) (requested : Bool) (files : List String → Option (Img ℝ → Img ℝ)) (processed : List String)
    (camera : String) (images : List (Img ℝ)) (outs : List (Img ℕ)) :
    processAll s requested files processed camera images = .ok outs ↔ outs.length = images.length ∧
      ∀ (i : ℕ) (im : Img ℝ) (out : Img ℕ), images[i]? = some im → outs[i]? = some out →
        processImage s (chooseRemap requested files processed camera) i im = .ok out := by
  rw [processAll, mapM_id_ok]
  constructor
  · intro h
    have hl := congrArg List.length h
    simp only [List.length_mapIdx, List.length_map] at hl
    refine ⟨hl.symm, fun i im out h1 h2 => ?_⟩
    have := congrArg (fun l => l[i]?) h
    simpa [h1, h2] using this
  · rintro ⟨hl, h⟩
    apply List.ext_getElem (by simp [hl])
    intro i h1 h2
    simp only [List.length_mapIdx] at h1
    simp only [List.getElem_mapIdx, List.getElem_map]
    exact h i _ _ (List.getElem?_eq_getElem h1) (List.getElem?_eq_getElem (by omega))

example : DistanceOf (setup0 "colour_correction" "bgr") 1 (some fun _ => 3) :=
  Or.inr (Or.inl ⟨rfl, 3, rfl, rfl⟩)

example : ∃ out, processImage (setup0 "colour_correction" "grayscale") none 0 (.grey [1, 1 / 2]) = .ok out :=
  (C201_distance_iff _ _ _ _ rfl (Or.inr rfl)).mpr ⟨some fun _ => 2, Or.inr (Or.inl ⟨rfl, 2, rfl, rfl⟩)⟩

example : bayerCode (setup0 "colour_correction" "rggb").type = .ok .bg := rfl

end Oplab.Props
