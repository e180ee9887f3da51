import Verif.Spec.PixelStats
import Verif.Spec.Numerical
import Verif.Props.Numerical
import Mathlib.Tactic

/-! # C247: brightness of a folder of images -/

namespace Oplab.Props
open Oplab Oplab.Spec

variable {K : Type} [Field K] [LinearOrder K] [FloorRing K] [IsStrictOrderedRing K]

/-- C247 (partial): the byte stands for the value, if it is below 1. -/
theorem C247_bytes_partial (x : K) (h0 : 0 ≤ x) (h1 : x < 1) : ByteOf x (statByte x) := by
  have hp : 0 ≤ x * 2 ^ 8 := by positivity
  have hlt : ⌊x * 2 ^ 8⌋₊ < 2 ^ 8 := by
    rw [Nat.floor_lt hp]
    push_cast
    nlinarith
  have e : statByte x = ⌊x * 2 ^ 8⌋₊ := Nat.mod_eq_of_lt hlt
  rw [e]
  refine ⟨by omega, ?_, Or.inl ?_⟩
  · have := Nat.floor_le hp
    rw [div_le_iff₀ (by norm_num)]
    norm_num at this ⊢
    linarith
  · have := Nat.lt_floor_add_one (x * 2 ^ 8)
    rw [lt_div_iff₀ (by norm_num)]
    norm_num at this ⊢
    linarith

example : ByteOf (1 / 4 : ℚ) 64 := by norm_num [ByteOf]

/-- C247 is false: a pixel that becomes white is written as black. -/
theorem C247_white_false : ¬ BytesRight ℚ := by
  intro h
  have := h 1 (by norm_num) le_rfl
  have e : statByte (1 : ℚ) = 0 := by
    unfold statByte
    norm_num
  rw [e] at this
  norm_num [ByteOf] at this

/-- C247 is false: brightness is not kept in order. -/
theorem C247_brighter_false : ¬ BrighterStays ℚ := by
  intro h
  have := h 0 2 0 (7 / 100) (by norm_num) (by norm_num)
  norm_num [statByte, statPixel] at this

/-- C247 (partial): while the result is not white, brighter pixels are not darker in the result, and a pixel at the mean gets the brightness 64. -/
theorem C247_brighter_partial (u v mean std : K) (hs : 0 < std) (huv : u ≤ v) (hw : (v - mean) / std * (7 / 100) + 25 / 100 < 1) :
    statByte (statPixel u mean std 25 7) ≤ statByte (statPixel v mean std 25 7) ∧ statByte (statPixel mean mean std 25 7) = 64 := by
  have key : ∀ x : K, (x - mean) / std * (7 / 100) + 25 / 100 < 1 → statByte (statPixel x mean std 25 7) = ⌊statPixel x mean std 25 7 * 2 ^ 8⌋₊ ∧
      statPixel x mean std 25 7 = max ((x - mean) / std * (7 / 100) + 25 / 100) 0 := by
    intro x hx
    have e : statPixel x mean std 25 7 = max ((x - mean) / std * (7 / 100) + 25 / 100) 0 := by
      rw [statPixel, min_eq_left]
      exact max_le hx.le zero_le_one
    refine ⟨?_, e⟩
    rw [statByte, Nat.mod_eq_of_lt]
    rw [e, Nat.floor_lt (by positivity)]
    have : max ((x - mean) / std * (7 / 100) + 25 / 100) 0 < 1 := max_lt hx zero_lt_one
    push_cast
    nlinarith
  have hle : (u - mean) / std * (7 / 100) + 25 / 100 ≤ (v - mean) / std * (7 / 100) + 25 / 100 := by
    have : (u - mean) / std ≤ (v - mean) / std := by
      rw [div_le_div_iff_of_pos_right hs]
      linarith
    linarith
  obtain ⟨u1, u2⟩ := key u (lt_of_le_of_lt hle hw)
  obtain ⟨v1, v2⟩ := key v hw
  constructor
  · rw [u1, v1, u2, v2]
    apply Nat.floor_mono
    apply mul_le_mul_of_nonneg_right _ (by positivity)
    exact max_le_max hle le_rfl
  · obtain ⟨m1, m2⟩ := key mean (by rw [sub_self, zero_div, zero_mul]; norm_num)
    rw [m1, m2, sub_self, zero_div, zero_mul, zero_add, max_eq_left (by norm_num)]
    rw [show (25 / 100 : K) * 2 ^ 8 = ((64 : ℕ) : K) by norm_num, Nat.floor_natCast]

example : ((1 / 2 : ℚ) - 1 / 4) / (1 / 10) * (7 / 100) + 25 / 100 < 1 := by norm_num

omit [Field K] [LinearOrder K] [FloorRing K] [IsStrictOrderedRing K] in
/-- C247: the statistics are turned: if they differ between rows only, as under lights that are brighter at the top of the image, what is used differs
between columns only. -/
theorem C247_turned (resize : Resize K) (hk : KeepsRows resize) (h w H W : ℕ) (m : Plane2 K) (hm : ∀ r c c', m r c = m r c') (r r' c : ℕ) :
    enlarged resize h w H W m r c = enlarged resize h w H W m r' c :=
  hk (h, w) (W, H) m hm c r r'

/-- The nearest pixel: a way of resizing. -/
private def nearest : Resize ℚ := fun a b m r c => m (r * a.1 / b.1) (c * a.2 / b.2)

private theorem nearest_rows : KeepsRows nearest := fun _ _ _ h _ _ _ => h _ _ _

example : KeepsRows nearest ∧ ∃ m : Plane2 ℚ, (∀ r c c', m r c = m r c') ∧ nearest (2, 2) (4, 4) m 0 0 ≠ nearest (2, 2) (4, 4) m 3 0 :=
  ⟨nearest_rows, fun r _ => r, fun _ _ _ => rfl, by norm_num [nearest]⟩

/-- C247 is false: a pixel is corrected with the statistics of another place. -/
theorem C247_place_false : ¬ StatsInPlace ℚ := by
  intro h
  have := h nearest 2 2 4 4 (fun r _ => r) 0 3 (by norm_num) (by norm_num)
  norm_num [enlarged, nearest] at this

omit [FloorRing K] in
/-- C247: the statistics of the small images are the mean and the variance of each pixel. -/
theorem C247_stats (resize : Resize K) (h w : ℕ) (sample : List ByteImage) (hs : sample ≠ []) (ch r c : ℕ) :
    folderStats resize h w sample ch r c =
      (mean (sample.map fun im => resize (im.rows, im.cols) (h, w) (unitPlane im ch) r c),
        variance (sample.map fun im => resize (im.rows, im.cols) (h, w) (unitPlane im ch) r c)) := by
  have hne : (sample.map fun im => resize (im.rows, im.cols) (h, w) (unitPlane im ch) r c) ≠ [] := by simpa using hs
  have := (C45_mean_std_array _ hne).1
  rw [meanStdArray, if_neg (by simpa using hne)] at this
  exact Except.ok.inj this

/-! ## Files -/

private theorem folder_ok (fix : ByteImage → Res ByteImage) (src out : String) (hso : src ≠ out) : ∀ (ns : List String) (fs : String × String → Option ByteImage),
    ns.Nodup → (∀ n ∈ ns, ∃ im im', fs (src, n) = some im ∧ fix im = .ok im') →
    (correctFolder fix src out ns fs).2 = none ∧
      (∀ n ∈ ns, ∃ im im', fs (src, n) = some im ∧ fix im = .ok im' ∧ (correctFolder fix src out ns fs).1 (out, n) = some im') ∧
      ∀ k, (∀ n ∈ ns, k ≠ (out, n)) → (correctFolder fix src out ns fs).1 k = fs k
  | [], fs, _, _ => ⟨rfl, by simp, fun _ _ => rfl⟩
  | n :: ns, fs, hn, h => by
    obtain ⟨im, im', h1, h2⟩ := h n List.mem_cons_self
    rw [List.nodup_cons] at hn
    have e : correctFolder fix src out (n :: ns) fs = correctFolder fix src out ns fun k => if k = (out, n) then some im' else fs k := by
      rw [correctFolder]
      simp only [h1, h2]
    have hsrc : ∀ x, (src, x) ≠ (out, n) := by
      intro x hx
      exact hso (Prod.mk.inj hx).1
    obtain ⟨i1, i2, i3⟩ := folder_ok fix src out hso ns (fun k => if k = (out, n) then some im' else fs k) hn.2 (by
      intro x hx
      obtain ⟨a, b, h3, h4⟩ := h x (List.mem_cons_of_mem _ hx)
      exact ⟨a, b, by rw [if_neg (hsrc x)]; exact h3, h4⟩)
    rw [e]
    refine ⟨i1, ?_, ?_⟩
    · intro x hx
      rcases List.mem_cons.mp hx with rfl | hx
      · refine ⟨im, im', h1, h2, ?_⟩
        rw [i3 _ (by
          intro y hy hxy
          rw [(Prod.mk.inj hxy).2] at hn
          exact hn.1 hy), if_pos rfl]
      · obtain ⟨a, b, h3, h4, h5⟩ := i2 x hx
        rw [if_neg (hsrc x)] at h3
        exact ⟨a, b, h3, h4, h5⟩
    · intro k hk
      rw [i3 k fun y hy => hk y (List.mem_cons_of_mem _ hy), if_neg (hk n List.mem_cons_self)]

/-- C247 (partial): a folder of images of three channels and one size, written to another folder: every image is written there under its name, with its
size, each pixel normalised from the same pixel of the image; nothing else is changed. -/
theorem C247_files_partial (resize : Resize K) (sqrt : K → K) (src out : String) (hso : src ≠ out) (names sample : List String) (hne : names ≠ [])
    (hnd : names.Nodup) (hs : sample ≠ []) (hsub : ∀ n ∈ sample, n ∈ names) (fs : String × String → Option ByteImage) (H W : ℕ)
    (him : ∀ n ∈ names, ∃ im, fs (src, n) = some im ∧ im.channels = some 3 ∧ im.rows = H ∧ im.cols = W) :
    (pixelStatsRun resize sqrt src out names sample fs).2 = none ∧
      (∀ n ∈ names, ∃ im im', fs (src, n) = some im ∧ (pixelStatsRun resize sqrt src out names sample fs).1 (out, n) = some im' ∧
        im'.rows = H ∧ im'.cols = W ∧ im'.channels = some 3 ∧
        ∀ ch r c, NormalisedPixel resize sqrt (sample.filterMap fun k => fs (src, k)) H W im im' ch r c) ∧
      ∀ k, (∀ n ∈ names, k ≠ (out, n)) → (pixelStatsRun resize sqrt src out names sample fs).1 k = fs k := by
  obtain ⟨n, ns, rfl⟩ := List.exists_cons_of_ne_nil hne
  obtain ⟨im, h1, h2, h3, h4⟩ := him n List.mem_cons_self
  have hims : (sample.filterMap fun k => fs (src, k)) ≠ [] := by
    obtain ⟨x, xs, rfl⟩ := List.exists_cons_of_ne_nil hs
    obtain ⟨a, ha, -⟩ := him x (hsub x List.mem_cons_self)
    rw [List.filterMap_cons, ha]
    simp
  generalize hI : (sample.filterMap fun k => fs (src, k)) = ims at hims
  let M : ℕ → Plane2 K := fun ch => enlarged resize (H / 2) (W / 2) H W fun r c => (folderStats resize (H / 2) (W / 2) ims ch r c).1
  let D : ℕ → Plane2 K := fun ch => enlarged resize (H / 2) (W / 2) H W fun r c => sqrt (folderStats resize (H / 2) (W / 2) ims ch r c).2
  have e : pixelStatsRun resize sqrt src out (n :: ns) sample fs = correctFolder (correctStats M D 25 7 H W) src out (n :: ns) fs := by
    simp only [pixelStatsRun, h1, hI]
    rw [if_neg (by rw [h2]; simp), h3, h4]
  rw [e]
  have hfix : ∀ x : ByteImage, x.channels = some 3 → x.rows = H → x.cols = W → correctStats M D 25 7 H W x =
      .ok { x with value := fun ch r c => statByte (statPixel ((x.value ch r c : K) / 2 ^ 8) (M ch r c) (D ch r c) 25 7) } := by
    intro x hx1 hx2 hx3
    unfold correctStats
    simp only [hx1]
    rw [if_pos (by simp [hx2, hx3])]
  obtain ⟨i1, i2, i3⟩ := folder_ok (correctStats M D 25 7 H W) src out hso (n :: ns) fs hnd (by
    intro x hx
    obtain ⟨a, a1, a2, a3, a4⟩ := him x hx
    exact ⟨a, _, a1, hfix a a2 a3 a4⟩)
  refine ⟨i1, ?_, i3⟩
  intro x hx
  obtain ⟨a, b, j1, j2, j3⟩ := i2 x hx
  obtain ⟨a', a1, a2, a3, a4⟩ := him x hx
  rw [j1] at a1
  cases a1
  rw [hfix a a2 a3 a4] at j2
  cases j2
  refine ⟨a, _, j1, j3, a3, a4, a2, fun ch r c => ?_⟩
  have hu : ∀ y : ByteImage, (unitPlane y ch : Plane2 K) = fun r c => (y.value ch r c : K) / 256 := by
    intro y
    funext r c
    norm_num [unitPlane]
  have hst : ∀ r c, folderStats resize (H / 2) (W / 2) ims ch r c =
      (mean (smallValues resize (H / 2) (W / 2) ims ch r c), variance (smallValues resize (H / 2) (W / 2) ims ch r c)) := by
    intro r c
    rw [C247_stats resize _ _ ims hims]
    simp only [hu, smallValues]
  simp only [NormalisedPixel, M, D, enlarged, hst]
  norm_num

omit [LinearOrder K] [IsStrictOrderedRing K] [FloorRing K] in
private theorem folder_success (fix : ByteImage → Res ByteImage) (src out : String) (hso : src ≠ out) : ∀ (ns : List String) (fs : String × String → Option ByteImage),
    (correctFolder fix src out ns fs).2 = none → ∀ n ∈ ns, ∃ im im', fs (src, n) = some im ∧ fix im = .ok im'
  | [], _, _, n, hn => by cases hn
  | m :: ns, fs, h, n, hn => by
    rw [correctFolder] at h
    cases h1 : fs (src, m) with
    | none => simp [h1] at h
    | some im =>
      cases h2 : fix im with
      | error e => simp [h1, h2] at h
      | ok im' =>
        rcases List.mem_cons.mp hn with rfl | hn
        · exact ⟨im, im', h1, h2⟩
        · simp only [h1, h2] at h
          obtain ⟨a, b, h3, h4⟩ := folder_success fix src out hso ns _ h n hn
          rw [if_neg (fun e => hso (Prod.mk.inj e).1)] at h3
          exact ⟨a, b, h3, h4⟩

omit [IsStrictOrderedRing K] in
/-- C247: a run to another folder that ends without an error had images of three channels only, all of the size of the first. -/
theorem C247_refused (resize : Resize K) (sqrt : K → K) (src out : String) (hso : src ≠ out) (names sample : List String)
    (fs : String × String → Option ByteImage) (h : (pixelStatsRun resize sqrt src out names sample fs).2 = none) :
    ∃ H W, ∀ n ∈ names, ∃ im, fs (src, n) = some im ∧ im.channels = some 3 ∧ im.rows = H ∧ im.cols = W := by
  cases names with
  | nil => simp [pixelStatsRun] at h
  | cons n ns =>
    cases h1 : fs (src, n) with
    | none => simp [pixelStatsRun, h1] at h
    | some im =>
      simp only [pixelStatsRun, h1] at h
      split at h
      · cases h
      · refine ⟨im.rows, im.cols, fun m hm => ?_⟩
        obtain ⟨a, b, h3, h4⟩ := folder_success _ src out hso (n :: ns) fs h m hm
        refine ⟨a, h3, ?_⟩
        unfold correctStats at h4
        cases hc : a.channels with
        | none => simp [hc] at h4
        | some k =>
          simp only [hc] at h4
          split at h4
          · rename_i hk
            rw [hk.1]
            exact ⟨rfl, hk.2.1, hk.2.2⟩
          · cases h4

private def white : ByteImage := ⟨2, 2, some 3, fun _ _ _ => 200⟩
private def oneFile (im : ByteImage) : String × String → Option ByteImage := fun k => if k = ("in", "a.png") then some im else none

example : ∀ n ∈ ["a.png"], ∃ im, oneFile white ("in", n) = some im ∧ im.channels = some 3 ∧ im.rows = 2 ∧ im.cols = 2 := by
  intro n hn
  rw [List.mem_singleton.mp hn]
  exact ⟨white, by simp [oneFile], rfl, rfl, rfl⟩

example : (pixelStatsRun (fun _ _ m => m) (fun _ => (1 : ℚ)) "in" "out" ["a.png"] ["a.png"] (oneFile white)).2 = none := by decide +kernel

/-- C247 is false: with the folder of the images as output, the images are replaced. -/
theorem C247_sources_false : ¬ SourcesKept ℚ := by
  intro h
  have := h (fun _ _ m => m) (fun _ => 1) "in" "in" ["a.png"] ["a.png"] (oneFile white) "a.png"
  have e : ((pixelStatsRun (fun _ _ m => m) (fun _ => (1 : ℚ)) "in" "in" ["a.png"] ["a.png"] (oneFile white)).1 ("in", "a.png")).map (fun im => im.value 0 0 0) = some 64 := by
    decide +kernel
  rw [this] at e
  have e2 : (oneFile white ("in", "a.png")).map (fun im => im.value 0 0 0) = some 200 := by simp [oneFile, white]
  rw [e2] at e
  exact absurd (Option.some.inj e) (by norm_num)

/-- C247 is false: images without colour are not corrected. -/
theorem C247_grey_false : ¬ AnyImages ℚ := by
  intro h
  have := h (fun _ _ m => m) (fun _ => 1) "in" "out" ["a.png"] ["a.png"] (oneFile { white with channels := none }) (by simp) (by
    intro n hn
    rw [List.mem_singleton.mp hn]
    simp [oneFile])
  simp [pixelStatsRun, oneFile] at this

end Oplab.Props
