import Verif.Model.CorrectYaml
import Verif.Spec.CorrectYaml
import Mathlib.Tactic.NormNum
import Mathlib.Data.Rat.Encodable

/-! # C198: correct_images.yaml -/

namespace Oplab.Props
open Oplab Oplab.Spec

private theorem readAll_map {α β : Type} (f : Y → Res β) (g : α → Y) (h : α → β) (hf : ∀ a, f (g a) = .ok (h a)) :
    ∀ l : List α, readAll f (l.map g) = .ok (l.map h)
  | [] => rfl
  | a :: l => by
    rw [List.map_cons, readAll, hf, readAll_map f g h hf l]
    rfl

private theorem readMetric_doc (m : String) (h : m ∈ ["none", "uniform", "altitude", "depth_map"]) :
    readMetric (.str m) = .ok (.str (if m = "none" then "uniform" else m)) := by
  have hm : metricOf m ∈ ["uniform", "altitude", "depth_map"] := by
    simp only [List.mem_cons, List.not_mem_nil, or_false] at h
    rcases h with rfl | rfl | rfl | rfl <;> simp [metricOf]
  rw [readMetric, if_pos hm]
  rfl

private theorem readFilter_doc (f : FilterDoc) : (f.yaml.asDict .typeError >>= readFilter) =
    .ok ((.num f.ranges.1.1, .num f.ranges.1.2), (.num f.ranges.2.1, .num f.ranges.2.2)) := by
  cases f <;> rfl

private theorem readColour_doc (c : ColourDoc) (h : c.metric ∈ ["none", "uniform", "altitude", "depth_map"]) :
    readColourYaml c.yaml = .ok c.settings := by
  have h1 := readMetric_doc c.metric h
  have h2 := readFilter_doc c.filter
  cases hy : c.filter.yaml.asDict .typeError with
  | error e =>
    rw [hy] at h2
    cases h2
  | ok n =>
    rw [hy] at h2
    have h2 : readFilter n = _ := h2
    show (do
      let metric ← readMetric (.str c.metric)
      let f ← c.filter.yaml.asDict .typeError
      let r ← readFilter f
      Except.ok (⟨metric, .str c.path, r.1, r.2, .str c.smoothing, .num c.window⟩ : ColourYaml)) = _
    rw [h1, hy]
    simp only [bind, Except.bind, h2]
    rfl

private theorem pair_doc (n : Node) (sec k1 k2 : String) (v1 v2 : Option Y) (d1 d2 : Y) (hk : k1 ≠ k2)
    (hs : n.lookup sec = some (.dict (entry k1 v1 ++ entry k2 v2))) :
    readPair n sec k1 k2 d1 d2 = .ok (v1.getD d1, v2.getD d2) := by
  have hk' : (k2 == k1) = false := by simpa using hk.symm
  have hk'' : (k1 == k2) = false := by simpa using hk
  rw [readPair, hs]
  cases v1 <;> cases v2 <;> simp [entry, Y.asDict, bind, Except.bind, Node.getD, List.lookup, hk', hk'']

private theorem readCamera_doc (c : CameraDoc) : readCameraYaml c.yaml = .ok c.settings := by
  have h1 := fun n => pair_doc n "image_file_list" "parse" "process" (c.listParse.map Y.str) (c.listProcess.map Y.str) (.str "none") (.str "none")
    (by decide)
  have h2 := fun n => pair_doc n "colour_correction" "brightness" "contrast" (c.brightness.map Y.num) (c.contrast.map Y.num) (.num 30) (.num 3) (by decide)
  have h3 := fun n => pair_doc n "manual_balance" "subtractors_rgb" "colour_gain_matrix_rgb" (c.subtractors.map numsYaml)
    (c.gains.map fun m => .list (m.map numsYaml)) noSubtractors unitGains (by decide)
  simp only [CameraDoc.yaml, readCameraYaml, Y.asDict, bind, Except.bind, readLists]
  rw [h2 _ rfl, h3 _ rfl]
  rw [show (List.lookup "image_file_list" _ : Option Y) = some (.dict (entry "parse" (c.listParse.map Y.str) ++ entry "process"
    (c.listProcess.map Y.str))) from rfl]
  simp only
  rw [h1 _ rfl]
  show Except.ok _ = Except.ok _
  refine congrArg Except.ok ?_
  cases c with
  | mk name lp lq b k s g => cases lp <;> cases lq <;> cases b <;> cases k <;> cases s <;> cases g <;> rfl

private theorem readRescale_doc (r : RescaleDoc) : readRescale r.yaml = .ok r.settings := rfl

private theorem readOptional_map {α β : Type} (f : Y → Res β) (g : α → Y) (h : α → β) (o : Option α) (hf : ∀ a ∈ o, f (g a) = .ok (h a)) :
    readOptional f (o.map g) = .ok (o.map h) := by
  cases o with
  | none => rfl
  | some a =>
    rw [Option.map_some, readOptional, hf a rfl]
    rfl

/-- C198: a valid file is read with every value it states and the documented defaults for what it leaves out; both forms of the altitude filter and the
old name of a metric are understood. -/
theorem C198_values (d : CorrectDoc) (h : d.Valid) : readCorrectYaml d.yaml = .ok d.settings := by
  obtain ⟨hm, hc⟩ := h
  have e1 : readMethod (.str d.method) = .ok d.method := by
    rw [readMethod, if_pos (by simpa using hm)]
  have e2 := readOptional_map readColourYaml ColourDoc.yaml ColourDoc.settings d.colour fun c hcd => readColour_doc c (hc c hcd)
  have e3 := readAll_map readCameraYaml CameraDoc.yaml CameraDoc.settings readCamera_doc d.cameras
  have e4 := readOptional_map (fun y => do
      let l ← y.asList
      readAll readRescale l) (fun l : List RescaleDoc => .list (l.map RescaleDoc.yaml)) (fun l => l.map RescaleDoc.settings) d.rescale
    fun l _ => readAll_map readRescale RescaleDoc.yaml RescaleDoc.settings readRescale_doc l
  have key : ∀ (cy : Option Y) (ry : Option Y) (cs : List Y), readCorrectYaml (.dict ([("version", .num d.version), ("method", .str d.method)] ++
      entry "colour_correction" cy ++ [("cameras", .list cs),
        ("output_settings", .dict [("undistort", .bool d.undistort), ("compression_parameter", .str d.compression)])] ++ entry "rescale" ry)) = (do
        let method ← readMethod (.str d.method)
        let colour ← readOptional readColourYaml cy
        let cameras ← readAll readCameraYaml cs
        let rescale ← readOptional (fun y => do
          let l ← y.asList
          readAll readRescale l) ry
        Except.ok ⟨.num d.version, method, colour, cameras, .bool d.undistort, .str d.compression, rescale⟩) := by
    intro cy ry cs
    cases cy <;> cases ry <;> rfl
  rw [CorrectDoc.yaml, key, e1, e2, e3]
  simp only [bind, Except.bind] at e4 ⊢
  rw [e4]
  rfl

/-- Non-vacuity: a file with the old metric name, the old filter and one camera. -/
example : (CorrectDoc.mk 2 "colour_correction" (some ⟨"none", "json_renav_*", .both 2 12, "median", 3⟩) [⟨"cam", none, none, some 25, none, none, none⟩]
    false "png" none).Valid := by
  refine ⟨by simp, ?_⟩
  intro c hc
  cases hc
  simp

/-- C198: whatever is read, a file that is accepted has a version, a known method and a known metric. -/
theorem C198_accepted (y : Y) (s : CorrectYaml) (h : readCorrectYaml y = .ok s) :
    (s.method = "manual_balance" ∨ s.method = "colour_correction") ∧
    ∀ c ∈ s.colour, c.metric = .str "uniform" ∨ c.metric = .str "altitude" ∨ c.metric = .str "depth_map" := by
  have hmeth : ∀ y m, readMethod y = .ok m → m = "manual_balance" ∨ m = "colour_correction" := by
    intro y m hy
    cases y <;> simp only [readMethod, reduceCtorEq] at hy
    split at hy
    · rename_i hs
      cases hy
      exact hs
    · cases hy
  have hmet : ∀ y m, readMetric y = .ok m → m = .str "uniform" ∨ m = .str "altitude" ∨ m = .str "depth_map" := by
    intro y m hy
    cases y <;> simp only [readMetric, reduceCtorEq] at hy
    split at hy
    · rename_i hs
      cases hy
      simp only [List.mem_cons, List.not_mem_nil, or_false] at hs
      rcases hs with h | h | h <;> simp [h]
    · cases hy
  have bindok : ∀ {α β : Type} {x : Res α} {f : α → Res β} {b : β}, (x >>= f) = .ok b → ∃ a, x = .ok a ∧ f a = .ok b := by
    intro α β x f b hx
    cases x with
    | error e => cases hx
    | ok a => exact ⟨a, rfl, hx⟩
  rw [readCorrectYaml] at h
  obtain ⟨d, -, h⟩ := bindok h
  split at h
  · cases h
  · obtain ⟨m, -, h⟩ := bindok h
    obtain ⟨method, hm, h⟩ := bindok h
    obtain ⟨colour, hcol, h⟩ := bindok h
    obtain ⟨_, -, h⟩ := bindok h
    obtain ⟨_, -, h⟩ := bindok h
    obtain ⟨_, -, h⟩ := bindok h
    obtain ⟨_, -, h⟩ := bindok h
    obtain ⟨_, -, h⟩ := bindok h
    obtain ⟨_, -, h⟩ := bindok h
    obtain ⟨_, -, h⟩ := bindok h
    obtain ⟨_, -, h⟩ := bindok h
    cases h
    refine ⟨hmeth _ _ hm, ?_⟩
    intro c hc
    simp only [Option.mem_def] at hc
    subst hc
    cases hl : List.lookup "colour_correction" d with
    | none =>
      rw [hl] at hcol
      cases hcol
    | some v =>
      rw [hl, readOptional] at hcol
      obtain ⟨c', hc', hcol⟩ := bindok hcol
      cases hcol
      rw [readColourYaml] at hc'
      obtain ⟨_, -, hc'⟩ := bindok hc'
      obtain ⟨_, -, hc'⟩ := bindok hc'
      obtain ⟨_, hm', hc'⟩ := bindok hc'
      obtain ⟨_, -, hc'⟩ := bindok hc'
      obtain ⟨_, -, hc'⟩ := bindok hc'
      obtain ⟨_, -, hc'⟩ := bindok hc'
      obtain ⟨_, -, hc'⟩ := bindok hc'
      obtain ⟨_, -, hc'⟩ := bindok hc'
      obtain ⟨_, -, hc'⟩ := bindok hc'
      cases hc'
      exact hmet _ _ hm'

/-- Non-vacuity: an unknown metric, an unknown method and a file without version are refused. -/
example : readCorrectYaml (CorrectDoc.mk 2 "colour_correction" (some ⟨"height", "j", .both 2 12, "median", 3⟩) [] false "png" none).yaml = .error .quit ∧
    readCorrectYaml (CorrectDoc.mk 2 "auto" none [] false "png" none).yaml = .error .quit ∧ readCorrectYaml (.dict []) = .error .quit :=
  ⟨rfl, rfl, rfl⟩

/-- C198 (partial): with the section of the attenuation, the first camera of a name is set up with its settings, and cameras that are not in the file are
skipped. Missing: files without that section, see `C198_method_false`. -/
theorem C198_setup_partial (d : CorrectDoc) (h : d.Valid) (c : ColourDoc) (hc : d.colour = some c) (name : String) :
    ∃ y, readCorrectYaml d.yaml = .ok y ∧
      cameraSetup y name = .ok ((d.cameras.find? fun k => k.name = name).map fun k => ⟨c.settings, k.settings⟩) := by
  refine ⟨_, C198_values d h, ?_⟩
  simp only [cameraSetup, CorrectDoc.settings, hc, Option.map_some, List.find?_map, Option.map_map]
  rfl

/-- Non-vacuity: of two cameras of the same name the first is used. -/
example : ([⟨"a", none, none, some 1, none, none, none⟩, ⟨"a", none, none, some 2, none, none, none⟩] : List CameraDoc).find? (fun k => k.name = "a") =
    some ⟨"a", none, none, some 1, none, none, none⟩ := rfl

/-- C198 is false for the manual balance without the section of the attenuation: the file is accepted, but no camera can be set up. -/
theorem C198_method_false : ¬ EveryMethodRuns ∧
    ∀ (d : CorrectDoc) y name, d.colour = none → readCorrectYaml d.yaml = .ok y → d.Valid → cameraSetup y name = .error .attributeError := by
  have h1 : ∀ (d : CorrectDoc) y name, d.colour = none → readCorrectYaml d.yaml = .ok y → d.Valid → cameraSetup y name = .error .attributeError := by
    intro d y name hd hy hv
    rw [C198_values d hv] at hy
    cases hy
    simp [cameraSetup, CorrectDoc.settings, hd]
  refine ⟨?_, h1⟩
  intro h
  have hv : (CorrectDoc.mk 2 "manual_balance" none [⟨"a", none, none, none, none, none, none⟩] false "png" none).Valid :=
    ⟨by simp, by intro c hc; cases hc⟩
  obtain ⟨s, y, hy, hs⟩ := h _ hv _ (List.mem_singleton.mpr rfl)
  rw [h1 _ y _ rfl hy hv] at hs
  cases hs

/-- C198 (partial): a balance of three channels has an output folder that names its gains and subtractors. Missing: one channel, see
`C198_monochrome_false`. -/
theorem C198_manual_partial (text : ℚ → List Char) (a b c a1 a2 b0 b2 c0 c1 x y z : ℚ) (suffix : List Char) :
    manualFolder text [[a, a1, a2], [b0, b, b2], [c0, c1, c]] [x, y, z] suffix =
      .ok ("corrected_manual_gain_".toList ++ text a ++ ['_'] ++ text b ++ ['_'] ++ text c ++ "_sub_".toList ++ text x ++ ['_'] ++ text y ++ ['_'] ++
        text z ++ suffixText suffix) := rfl

/-- C198 is false for a balance of one channel, as in the file delivered for BioCam: its output folder cannot be named. -/
theorem C198_monochrome_false : ¬ EveryBalanceRuns ∧ ∀ text g s suffix, manualFolder text [[g]] [s] suffix = .error .indexError := by
  have h1 : ∀ text g s suffix, manualFolder text [[g]] [s] suffix = .error .indexError := fun _ _ _ _ => rfl
  refine ⟨?_, h1⟩
  intro h
  obtain ⟨f, hf⟩ := h (fun _ => []) [[1]] [0] (Or.inl rfl) rfl (by simp)
  rw [h1] at hf
  cases hf

/-- C198 is false for two gain matrices with the same diagonal: their images go to the same folder. -/
theorem C198_folder_false (text : ℚ → List Char) (ht : ∀ a b, text a = text b → a = b) : ¬ BalancesApart := by
  intro h
  have := (h text ht [[1, 0, 0], [0, 1, 0], [0, 0, 1]] [[1, 1, 0], [0, 1, 0], [0, 0, 1]] [0, 0, 0] [0, 0, 0] _
    (C198_manual_partial text 1 1 1 0 0 0 0 0 0 0 0 0 []) (C198_manual_partial text 1 1 1 1 0 0 0 0 0 0 0 0 [])).1
  simp at this

/-- Non-vacuity: numbers have different texts, for example by their numerators and denominators. -/
example : ∃ text : ℚ → List Char, ∀ a b, text a = text b → a = b :=
  ⟨fun q => List.replicate (Encodable.encode q) 'x', fun a b h => by simpa using congrArg List.length h⟩

/-- C198 is false for limits that no altitude meets: they are accepted. -/
theorem C198_limits_false : ¬ EmptyLimitsRefused := by
  intro h
  obtain ⟨x, h1, h2⟩ := h ⟨"altitude", "j", .both 12 2, "median", 3⟩ _ (readColour_doc _ (by simp))
  have : (12 : ℚ) ≤ 2 := le_trans h1 h2
  norm_num at this

/-- C198: a section of a camera that is there but empty stops the run, except for the lists of images. -/
theorem C198_empty_sections (name : Y) (rest : Node) :
    readCameraYaml (.dict (("camera_name", name) :: ("image_file_list", .null) :: ("colour_correction", .null) :: rest)) = .error .attributeError ∧
    readCameraYaml (.dict (("camera_name", name) :: ("image_file_list", .null) :: ("colour_correction", .dict []) :: ("manual_balance", .null) :: rest)) =
      .error .attributeError ∧
    readCameraYaml (.dict [("camera_name", name), ("image_file_list", .null)]) =
      .ok ⟨name, .str "none", .str "none", .num 30, .num 3, noSubtractors, unitGains⟩ := ⟨rfl, rfl, rfl⟩

end Oplab.Props
