import Verif.Spec.AttnPlots
import Mathlib.Tactic.Linarith
import Mathlib.Tactic.Ring

/-! C259: the figures of attenuation. -/

namespace Oplab.Props
open Oplab Oplab.Spec

private theorem round_near (a b : ℕ) (hb : 0 < b) :
    2 * (roundQuot a b * b) ≤ 2 * a + b ∧ 2 * a ≤ 2 * (roundQuot a b * b) + b := by
  have h := Nat.div_add_mod a b
  have hr := Nat.mod_lt a hb
  rw [Nat.mul_comm] at h
  unfold roundQuot
  have e : (a / b + 1) * b = a / b * b + b := by ring
  simp only
  split
  · omega
  · split
    · rw [e]; omega
    · split
      · omega
      · rw [e]; omega

private theorem flat_get {A : Type} (f : ℕ → ℕ → A) (w : ℕ) (n y x : ℕ) (hx : x < w) (hy : y < n) :
    ((List.range n).flatMap fun y => (List.range w).map (f y))[y * w + x]? = some (f y x) := by
  induction n with
  | zero => omega
  | succ n ih =>
    rw [List.range_succ, List.flatMap_append]
    have hl : ((List.range n).flatMap fun y => (List.range w).map (f y)).length = n * w := by
      clear ih hy
      induction n with
      | zero => simp
      | succ n ih =>
        rw [List.range_succ, List.flatMap_append, List.length_append, ih]
        simp [Nat.succ_mul]
    by_cases hn : y < n
    · rw [List.getElem?_append_left, ih hn]
      rw [hl]
      have : (y + 1) * w ≤ n * w := Nat.mul_le_mul_right _ hn
      have e : (y + 1) * w = y * w + w := by ring
      omega
    · have : y = n := by omega
      subst this
      rw [List.getElem?_append_right (by rw [hl]; omega), hl]
      have : y * w + x - y * w = x := by omega
      rw [this]
      simp [hx]

private theorem job_eq (channels c h w x y : ℕ) (hx : x < w) (hy : y < h) :
    curveJob channels c h w (y * w + x) =
      (x, y, if x = diagColumn h w y then some (curveName channels c x y) else none) := by
  unfold curveJob figurePaths
  rw [flat_get (fun y x => if x = diagColumn h w y then some (curveName channels c x y) else none) w h y x hx hy]
  have hw : 0 < w := by omega
  have e1 : (y * w + x) % w = x := by rw [Nat.mul_comm, Nat.mul_add_mod, Nat.mod_eq_of_lt hx]
  have e2 : (y * w + x) / w = y := by
    rw [Nat.mul_comm, Nat.mul_add_div hw, Nat.div_eq_of_lt hx, Nat.add_zero]
  rw [e1, e2]
  rfl

/-- **C259**: the fit of a pixel is told the pixel's own column and row; a figure is only made within half a pixel of the
diagonal of the image, at most one in a row, and is named after channel, column and row. -/
theorem C259_figures (channels c h w x y : ℕ) (hx : x < w) (hy : y < h) :
    (curveJob channels c h w (y * w + x)).1 = x ∧ (curveJob channels c h w (y * w + x)).2.1 = y ∧
    ∀ n, (curveJob channels c h w (y * w + x)).2.2 = some n →
      n = curveName channels c x y ∧ NearDiagonal h w x y ∧
      ∀ x' < w, (curveJob channels c h w (y * w + x')).2.2 ≠ none → x' = x := by
  rw [job_eq channels c h w x y hx hy]
  refine ⟨rfl, rfl, ?_⟩
  intro n hn
  simp only at hn
  split at hn
  · rename_i hd
    injection hn with hn
    refine ⟨hn.symm, ?_, ?_⟩
    · have := round_near (y * w) h (by omega)
      rw [hd]
      exact this
    · intro x' hx' h'
      rw [job_eq channels c h w x' y hx' hy] at h'
      simp only at h'
      split at h'
      · rename_i hd'
        rw [hd, hd']
      · exact absurd rfl h'
  · cases hn

/-- Non-vacuity: an image of 2 rows and 4 columns. -/
example : figurePaths 1 0 2 4 = [some (curveName 1 0 0 0), none, none, none, none, none, some (curveName 1 0 2 1), none] := by
  decide +kernel

/-- **C259**, partial: if an image is more than half as wide as high, every row has exactly one figure. -/
theorem C259_row_partial (channels c h w y : ℕ) (hy : y < h) (hw : h < 2 * w) :
    ∃! x, x < w ∧ (curveJob channels c h w (y * w + x)).2.2 ≠ none := by
  have hlt : diagColumn h w y < w := by
    obtain ⟨h1, -⟩ := round_near (y * w) h (by omega)
    unfold diagColumn
    by_contra hc
    have h2 : w * h ≤ roundQuot (y * w) h * h := Nat.mul_le_mul_right _ (by omega)
    have h3 : (y + 1) * w ≤ h * w := Nat.mul_le_mul_right _ hy
    have e : (y + 1) * w = y * w + w := by ring
    have e2 : w * h = h * w := Nat.mul_comm _ _
    omega
  refine ⟨diagColumn h w y, ⟨hlt, ?_⟩, ?_⟩
  · rw [job_eq _ _ _ _ _ _ hlt hy]
    simp
  · rintro x ⟨hx, hn⟩
    rw [job_eq _ _ _ _ _ _ hx hy] at hn
    simp only at hn
    split at hn
    · assumption
    · exact absurd rfl hn

/-- **C259** fails for narrow images: the last row of an image of one column has no figure. -/
theorem C259_row_false : ¬ FigurePerRow := by
  intro h
  obtain ⟨x, ⟨hx, hn⟩, -⟩ := h 1 0 3 1 2 (by decide) (by decide)
  have : x = 0 := by omega
  subst this
  revert hn
  decide +kernel

private theorem no_us (n : ℕ) : '_' ∉ pad4 n := by
  intro h
  unfold pad4 at h
  rcases List.mem_append.1 h with h | h
  · have := (List.mem_replicate.1 h).2
    revert this; decide
  · exact Nat.underscore_not_in_toDigits h

private theorem zeros_value (k : ℕ) (l : List Char) : Nat.ofDigitChars 10 (List.replicate k '0' ++ l) 0 = Nat.ofDigitChars 10 l 0 := by
  induction k with
  | zero => rfl
  | succ k ih =>
    rw [List.replicate_succ, List.cons_append, Nat.ofDigitChars_cons]
    exact ih

private theorem pad4_inj (m n : ℕ) (h : pad4 m = pad4 n) : m = n := by
  have := congrArg (fun l => Nat.ofDigitChars 10 l 0) h
  simpa only [pad4, zeros_value, Nat.ofDigitChars_ten_toDigits] using this

private theorem name_split (channels c x y : ℕ) : (curveName channels c x y).splitOn '_' =
    ["intensities".toList, "curve".toList] ++ (if 1 < channels then [['c'], Nat.toDigits 10 c] else []) ++
      [['x'], pad4 x, ['y'], pad4 y ++ ".png".toList] := by
  have hp : '_' ∉ pad4 y ++ ".png".toList := by
    intro h
    rcases List.mem_append.1 h with h | h
    · exact no_us _ h
    · revert h; decide +kernel
  have ht : ('x' :: '_' :: (pad4 x ++ '_' :: 'y' :: '_' :: (pad4 y ++ ".png".toList))).splitOn '_' =
      [['x'], pad4 x, ['y'], pad4 y ++ ".png".toList] := by
    have e1 : 'x' :: '_' :: (pad4 x ++ '_' :: 'y' :: '_' :: (pad4 y ++ ".png".toList)) =
      ['x'] ++ '_' :: (pad4 x ++ '_' :: (['y'] ++ '_' :: (pad4 y ++ ".png".toList))) := rfl
    rw [e1, List.splitOn_append_cons_self_of_not_mem (by decide), List.splitOn_append_cons_self_of_not_mem (no_us _),
      List.splitOn_append_cons_self_of_not_mem (by decide), List.splitOn_eq_singleton hp]
  have hi : "intensities_curve".toList.splitOn '_' = ["intensities".toList, "curve".toList] := by decide +kernel
  unfold curveName
  rw [List.splitOn_append_cons_self, hi]
  unfold channelStr
  split
  · have e2 : 'c' :: '_' :: (Nat.toDigits 10 c ++ ['_']) ++ 'x' :: '_' :: (pad4 x ++ '_' :: 'y' :: '_' :: (pad4 y ++ ".png".toList)) =
      ['c'] ++ '_' :: (Nat.toDigits 10 c ++ '_' :: ('x' :: '_' :: (pad4 x ++ '_' :: 'y' :: '_' :: (pad4 y ++ ".png".toList)))) := by
      simp
    rw [e2, List.splitOn_append_cons_self_of_not_mem (by decide),
      List.splitOn_append_cons_self_of_not_mem Nat.underscore_not_in_toDigits, ht]
    rfl
  · rw [List.nil_append, ht]
    rfl

/-- **C259**: the figures of different channels and pixels have different names. -/
theorem C259_names (channels c c' x x' y y' : ℕ) (hc : c < channels) (hc' : c' < channels)
    (h : curveName channels c x y = curveName channels c' x' y') : c = c' ∧ x = x' ∧ y = y' := by
  have hs := congrArg (List.splitOn '_') h
  rw [name_split, name_split] at hs
  by_cases h1 : 1 < channels
  · rw [if_pos h1, if_pos h1] at hs
    simp only [List.cons_append, List.nil_append, List.cons.injEq, true_and, and_true] at hs
    obtain ⟨hd, hx, hy⟩ := hs
    refine ⟨?_, pad4_inj _ _ hx, pad4_inj _ _ (List.append_cancel_right hy)⟩
    have := congrArg (fun l => Nat.ofDigitChars 10 l 0) hd
    simpa only [Nat.ofDigitChars_ten_toDigits] using this
  · rw [if_neg h1, if_neg h1] at hs
    simp only [List.cons_append, List.nil_append, List.cons.injEq, true_and, and_true] at hs
    obtain ⟨hx, hy⟩ := hs
    exact ⟨by omega, pad4_inj _ _ hx, pad4_inj _ _ (List.append_cancel_right hy)⟩

private theorem pad4_four (n : ℕ) (h : n < 10000) : pad4 n = fourDigits n := by
  have z : Nat.digitChar 0 = '0' := rfl
  have hb : 1 < 10 := by decide
  unfold pad4 fourDigits
  by_cases h1 : n < 10
  · rw [Nat.toDigits_of_lt_base h1, show n / 1000 = 0 by omega, show n / 100 % 10 = 0 by omega, show n / 10 % 10 = 0 by omega,
      show n % 10 = n by omega, z]
    rfl
  by_cases h2 : n < 100
  · rw [Nat.toDigits_of_base_le hb (by omega), Nat.toDigits_of_lt_base (by omega : n / 10 < 10), show n / 1000 = 0 by omega,
      show n / 100 % 10 = 0 by omega, show n / 10 % 10 = n / 10 by omega, z]
    rfl
  by_cases h3 : n < 1000
  · rw [Nat.toDigits_of_base_le hb (by omega), Nat.toDigits_of_base_le hb (by omega : 10 ≤ n / 10),
      Nat.toDigits_of_lt_base (by omega : n / 10 / 10 < 10), show n / 1000 = 0 by omega,
      show n / 100 % 10 = n / 10 / 10 by omega, z]
    rfl
  · rw [Nat.toDigits_of_base_le hb (by omega), Nat.toDigits_of_base_le hb (by omega : 10 ≤ n / 10),
      Nat.toDigits_of_base_le hb (by omega : 10 ≤ n / 10 / 10),
      Nat.toDigits_of_lt_base (by omega : n / 10 / 10 / 10 < 10), show n / 1000 = n / 10 / 10 / 10 by omega,
      show n / 100 % 10 = n / 10 / 10 % 10 by omega]
    rfl

/-- **C259**: the name of the figure of a pixel of an image with one channel and up to 10000 rows and columns: both numbers have four digits,
so that sorting by name sorts by pixel. -/
theorem C259_figure_name (c x y : ℕ) (hx : x < 10000) (hy : y < 10000) :
    curveName 1 c x y = "intensities_curve_x_".toList ++ fourDigits x ++ "_y_".toList ++ fourDigits y ++ ".png".toList := by
  unfold curveName channelStr
  rw [pad4_four x hx, pad4_four y hy, if_neg (by decide)]
  simp only [List.append_assoc, List.nil_append]
  rfl

example : curveName 1 0 27 1034 = "intensities_curve_x_0027_y_1034.png".toList := by decide +kernel

/-- **C259**, partial: gains, coefficients and means, and the deviation of the first channel, are drawn under their own
names; nothing given is left without a picture. -/
theorem C259_plots_partial (attn gains : Bool) (mean std : Option ℕ) (f : PlotFile) (d : PlotData)
    (h : (f, d) ∈ savePlots attn gains mean std) (hf : ∀ k, f = .std k → k = 0) : d = PlotFile.shows f := by
  unfold savePlots at h
  simp only [List.mem_append] at h
  rcases h with ((h | h) | h) | h
  · unfold gainPlots at h
    split at h
    · simp only [List.mem_singleton, Prod.mk.injEq] at h
      rw [h.1, h.2]; rfl
    · simp at h
  · unfold coeffPlots at h
    split at h
    · simp only [List.mem_cons, Prod.mk.injEq, List.not_mem_nil, or_false] at h
      rcases h with ⟨rfl, rfl⟩ | ⟨rfl, rfl⟩ | ⟨rfl, rfl⟩ <;> rfl
    · simp at h
  · cases mean with
    | none => simp [meanPlots] at h
    | some n =>
      unfold meanPlots at h
      simp only [List.mem_append, List.mem_singleton, Prod.mk.injEq] at h
      rcases h with (⟨rfl, rfl⟩ | h) | h
      · rfl
      · split at h
        · simp only [List.mem_singleton, Prod.mk.injEq] at h
          rw [h.1, h.2]; rfl
        · simp at h
      · split at h
        · simp only [List.mem_singleton, Prod.mk.injEq] at h
          rw [h.1, h.2]; rfl
        · simp at h
  · cases std with
    | none => simp [stdPlots] at h
    | some n =>
      unfold stdPlots at h
      simp only [List.mem_append, List.mem_singleton, Prod.mk.injEq] at h
      rcases h with (⟨rfl, rfl⟩ | h) | h
      · rfl
      · split at h
        · simp only [List.mem_singleton, Prod.mk.injEq] at h
          have := hf 1 h.1
          omega
        · simp at h
      · split at h
        · simp only [List.mem_singleton, Prod.mk.injEq] at h
          have := hf 2 h.1
          omega
        · simp at h

private theorem all_hg (f : PlotFile) (gains : Bool) : f ∈ List.map Prod.fst (if gains = true then [(PlotFile.gain, PlotData.gain 0)] else []) ↔ (f = .gain ∧ gains = true) := by
  cases gains <;> simp

private theorem all_ha (f : PlotFile) (attn : Bool) : f ∈ List.map Prod.fst (if attn = true then [(PlotFile.coeff 0, PlotData.coeff 0 0), (.coeff 1, .coeff 0 1), (.coeff 2, .coeff 0 2)] else []) ↔
    (∃ k < 3, f = .coeff k ∧ attn = true) := by
  cases attn
  · simp
  · simp only [if_true, List.map_cons, List.map_nil, List.mem_cons, List.not_mem_nil, or_false, and_true]
    constructor
    · rintro (h | h | h)
      · exact ⟨0, by omega, h⟩
      · exact ⟨1, by omega, h⟩
      · exact ⟨2, by omega, h⟩
    · rintro ⟨k, hk, h⟩
      have : k = 0 ∨ k = 1 ∨ k = 2 := by omega
      rcases this with rfl | rfl | rfl <;> simp [h]

private theorem all_hm (f : PlotFile) (mean : Option ℕ) : f ∈ (meanPlots mean).map Prod.fst ↔ (∃ n k, mean = some n ∧ f = .mean k ∧ k < 3 ∧ (k = 0 ∨ k < n)) := by
  cases mean with
  | none => simp [meanPlots]
  | some n =>
    unfold meanPlots
    simp only [List.map_append, List.mem_append, List.map_cons, List.map_nil, List.mem_singleton, Option.some.injEq]
    constructor
    · rintro ((h | h) | h)
      · exact ⟨n, 0, rfl, h, by omega, Or.inl rfl⟩
      · split at h
        · simp at h; exact ⟨n, 1, rfl, h, by omega, Or.inr (by omega)⟩
        · simp at h
      · split at h
        · simp at h; exact ⟨n, 2, rfl, h, by omega, Or.inr (by omega)⟩
        · simp at h
    · rintro ⟨m, k, rfl, rfl, hk, h⟩
      have : k = 0 ∨ k = 1 ∨ k = 2 := by omega
      rcases this with rfl | rfl | rfl
      · simp
      · have : 1 < n := by omega
        simp [this]
      · have : 2 < n := by omega
        simp [this]

private theorem all_hs (f : PlotFile) (std : Option ℕ) : f ∈ (stdPlots std).map Prod.fst ↔ (∃ n k, std = some n ∧ f = .std k ∧ k < 3 ∧ (k = 0 ∨ k < n)) := by
  cases std with
  | none => simp [stdPlots]
  | some n =>
    unfold stdPlots
    simp only [List.map_append, List.mem_append, List.map_cons, List.map_nil, List.mem_singleton, Option.some.injEq]
    constructor
    · rintro ((h | h) | h)
      · exact ⟨n, 0, rfl, h, by omega, Or.inl rfl⟩
      · split at h
        · simp at h; exact ⟨n, 1, rfl, h, by omega, Or.inr (by omega)⟩
        · simp at h
      · split at h
        · simp at h; exact ⟨n, 2, rfl, h, by omega, Or.inr (by omega)⟩
        · simp at h
    · rintro ⟨m, k, rfl, rfl, hk, h⟩
      have : k = 0 ∨ k = 1 ∨ k = 2 := by omega
      rcases this with rfl | rfl | rfl
      · simp
      · have : 1 < n := by omega
        simp [this]
      · have : 2 < n := by omega
        simp [this]

/-- **C259**: there is a picture for each of up to three channels of mean and deviation, and for each coefficient. -/
theorem C259_all (attn gains : Bool) (mean std : Option ℕ) (f : PlotFile) :
    (∃ d, (f, d) ∈ savePlots attn gains mean std) ↔
      (f = .gain ∧ gains = true) ∨ (∃ k < 3, f = .coeff k ∧ attn = true) ∨
      (∃ n k, mean = some n ∧ f = .mean k ∧ k < 3 ∧ (k = 0 ∨ k < n)) ∨
      (∃ n k, std = some n ∧ f = .std k ∧ k < 3 ∧ (k = 0 ∨ k < n)) := by
  have key : (∃ d, (f, d) ∈ savePlots attn gains mean std) ↔ f ∈ (savePlots attn gains mean std).map Prod.fst := by
    simp
  rw [key]
  unfold savePlots gainPlots coeffPlots
  simp only [List.map_append, List.mem_append]
  rw [all_hg, all_ha, all_hm, all_hs, or_assoc, or_assoc]

/-- **C259** fails: the pictures of the deviations of the second and third channel show the first. -/
theorem C259_plots_false : ¬ PlotsRight := by
  intro h
  have := h false false none (some 3) (.std 1) (.std 0) (by decide)
  cases this

/-- **C259** (partial: images of at least 100 pixels): the plot of all curves shows between 100 and 199 pixels of the image, at equal
distances from the first one on, and ends less than that distance before the end of the image. -/
theorem C259_curves_partial (h w : ℕ) (hn : 100 ≤ h * w) :
    ∃ l q, curvePixels h w = .ok l ∧ q = h * w / 100 ∧ 0 < q ∧ 100 ≤ l.length ∧ l.length ≤ 199 ∧
      h * w ≤ l.length * q ∧ (l.length - 1) * q < h * w ∧
      ∀ k p, l[k]? = some p → p.1 < h ∧ PixelNumber w (k * q) p := by
  have hw : 0 < w := Nat.pos_of_ne_zero (by rintro rfl; simp at hn)
  generalize hN : h * w = n at hn
  have hq : 0 < n / 100 := Nat.div_pos hn (by norm_num)
  generalize hQ : n / 100 = q at hq
  have e1 : n = 100 * q + n % 100 := by rw [← hQ]; exact (Nat.div_add_mod n 100).symm
  have e2 : n % 100 < 100 := Nat.mod_lt _ (by norm_num)
  generalize hL : (n + q - 1) / q = m
  have d1 : q * m + (n + q - 1) % q = n + q - 1 := by rw [← hL]; exact Nat.div_add_mod _ _
  have d2 : (n + q - 1) % q < q := Nat.mod_lt _ hq
  have up : n ≤ m * q := by rw [Nat.mul_comm]; omega
  have lo : m * q ≤ n + q - 1 := by rw [Nat.mul_comm]; omega
  have m100 : 100 ≤ m := by
    by_contra hc
    have : m * q ≤ 99 * q := Nat.mul_le_mul_right q (by omega)
    omega
  have m199 : m ≤ 199 := by
    by_contra hc
    have : 200 * q ≤ m * q := Nat.mul_le_mul_right q (by omega)
    omega
  have pr : (m - 1) * q = m * q - q := by rw [Nat.sub_mul, Nat.one_mul]
  refine ⟨((List.range m).map (· * q)).map fun i => (i / w, i % w), q, ?_, rfl, hq, by simpa using m100, by simpa using m199,
    by simpa using up, ?_, ?_⟩
  · unfold curvePixels rangeStep
    rw [hN, hQ, if_neg (by omega), hL]
    rfl
  · simp only [List.length_map, List.length_range]
    omega
  · intro k p hk
    simp only [List.map_map, List.getElem?_map, Option.map_eq_some_iff] at hk
    obtain ⟨a, ha, rfl⟩ := hk
    obtain ⟨hkm, rfl⟩ := List.getElem?_eq_some_iff.mp ha
    simp only [List.length_range] at hkm
    simp only [List.getElem_range, Function.comp_apply]
    have hlt : k * q < h * w := by
      have : k * q ≤ (m - 1) * q := Nat.mul_le_mul_right q (by omega)
      omega
    refine ⟨Nat.div_lt_of_lt_mul (by rw [Nat.mul_comm w h]; exact hlt), Nat.mod_lt _ hw, ?_⟩
    exact (Nat.div_add_mod' _ _).symm

/-- **C259**: of images of fewer than 100 pixels no parameters are saved, as the plot of all curves fails first. -/
theorem C259_saved_false : ¬ ParametersSaved := by
  intro h
  have := (h 9 11 (by norm_num) (by norm_num)).2
  revert this
  decide

/-- **C259**: of larger images they are saved, after the two maps. -/
theorem C259_saved_partial (h w : ℕ) (hn : 100 ≤ h * w) :
    attnFiles h w = ([.imagesMap, .distancesMap, .curves, .parameters, .coefficients, .gains], none) := by
  obtain ⟨l, _, hl, _⟩ := C259_curves_partial h w hn
  unfold attnFiles
  rw [hl]

example : curvePixels 20 10 = .ok ((List.range 100).map fun i => (i * 2 / 10, i * 2 % 10)) := rfl

end Oplab.Props
