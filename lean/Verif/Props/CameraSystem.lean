import Verif.Model.CameraSystem
import Mathlib.Tactic.NormNum

/-! # C126–C128: images of a camera and their times -/

namespace Oplab.Props

open Oplab

/-! ## C126: the images of a camera -/

/-- For a path without wildcard, a camera that has not been used before has all the images of its folder, each as often as it is
there, in the order of their paths; only if there are none, those beside the folder. -/
theorem C126_images {I T : Type} [LinearOrder I] (d : DiveFolder I) :
    ∃ s, imageList 1 d (⟨[], []⟩ : CameraLists I T) = .ok s ∧ s.images.Pairwise (· ≤ ·) ∧
      (d.inFolder ≠ [] → s.images.Perm d.inFolder) ∧ (d.inFolder = [] → s.images.Perm d.beside) := by
  by_cases h : d.inFolder.length = 0
  · refine ⟨⟨d.beside.insertionSort (· ≤ ·), []⟩, ?_, List.pairwise_insertionSort _ _, fun hn => ?_, fun _ => List.perm_insertionSort _ _⟩
    · simp only [imageList, findImages, bind, Except.bind]
      rw [if_neg (by decide), if_pos trivial, if_pos h]
    · exact absurd (List.length_eq_zero_iff.mp h) hn
  · refine ⟨⟨d.inFolder.insertionSort (· ≤ ·), []⟩, ?_, List.pairwise_insertionSort _ _, fun _ => List.perm_insertionSort _ _, fun hn => ?_⟩
    · simp only [imageList, findImages, bind, Except.bind]
      rw [if_neg (by decide), if_pos trivial, if_neg h]
    · exact absurd (by rw [hn]; rfl) h

example : (imageList 1 ⟨[3, 1, 2], [7], []⟩ (⟨[], []⟩ : CameraLists ℕ ℕ)).toOption.map (fun s => s.images) = some [1, 2, 3] := by
  decide +kernel

/-- With wildcards, the images of the first folder that is found, in order. -/
theorem C126_wildcard_partial {I T : Type} [LinearOrder I] (parts : ℕ) (hp : 2 ≤ parts ∧ parts ≤ 4) (a b : List I) (f : List I)
    (l : List (List I)) :
    ∃ s, imageList parts ⟨a, b, f :: l⟩ (⟨[], []⟩ : CameraLists I T) = .ok s ∧ s.images.Pairwise (· ≤ ·) ∧ s.images.Perm f := by
  refine ⟨⟨f.insertionSort (· ≤ ·), []⟩, ?_, List.pairwise_insertionSort _ _, List.perm_insertionSort _ _⟩
  simp only [imageList, findImages, bind, Except.bind]
  rw [if_pos (by omega)]

/-- The wildcards matching no folder is an `IndexError`, and more than three wildcards end the program. -/
theorem C126_wildcard_errors {I T : Type} [LinearOrder I] (parts : ℕ) (a b : List I) :
    ((2 ≤ parts ∧ parts ≤ 4) → imageList parts ⟨a, b, []⟩ (⟨[], []⟩ : CameraLists I T) = .error .indexError) ∧
    (5 ≤ parts → ∀ f, imageList parts ⟨a, b, f⟩ (⟨[], []⟩ : CameraLists I T) = .error .quit) := by
  constructor
  · intro h
    simp only [imageList, findImages, bind, Except.bind]
    rw [if_pos (by omega)]
  · intro h f
    simp only [imageList, findImages, bind, Except.bind]
    rw [if_neg (by omega), if_neg (by omega)]

/-- The full statement for wildcards: every image of every folder that matches is in the list. -/
def EveryMatchListed : Prop :=
  ∀ (folders : List (List ℕ)) (s : CameraLists ℕ ℕ), imageList 2 ⟨[], [], folders⟩ ⟨[], []⟩ = .ok s →
    ∀ f ∈ folders, ∀ i ∈ f, i ∈ s.images

/-- It is false: with two matching folders the images of the second are left out. -/
theorem C126_every_match_false : ¬ EveryMatchListed := by
  intro h
  have := h [[1], [2]] ⟨[1], []⟩ rfl [2] (by simp) 2 (by simp)
  simp at this

/-! ## C127: times of images -/

private theorem loop_prefix {I T : Type} (convert : I → Res T) :
    ∀ l : List I, (stampLoop convert l).1.length ≤ l.length ∧
      (∀ (k : ℕ) (i : I) (t : T), l[k]? = some i → (stampLoop convert l).1[k]? = some t → convert i = .ok t) ∧
      ((stampLoop convert l).2 = none → (stampLoop convert l).1.length = l.length) := by
  intro l
  induction l with
  | nil => simp [stampLoop]
  | cons p l ih =>
    obtain ⟨h1, h2, h3⟩ := ih
    cases hc : convert p with
    | error e => simp [stampLoop, hc]
    | ok t =>
      simp only [stampLoop, hc, List.length_cons]
      refine ⟨by omega, ?_, fun h => by rw [h3 h]⟩
      intro k i t' hk ht
      cases k with
      | zero => simp only [List.getElem?_cons_zero, Option.some.injEq] at hk ht; rw [← hk, ← ht]; exact hc
      | succ k => simp only [List.getElem?_cons_succ] at hk ht; exact h2 k i t' hk ht

/-- The lists of a camera fit together: not more times than images, and every time is that of the image at the same place. -/
def Aligned {I T : Type} (convert : I → Res T) (s : CameraLists I T) : Prop :=
  s.stamps.length ≤ s.images.length ∧ ∀ (k : ℕ) (i : I) (t : T), s.images[k]? = some i → s.stamps[k]? = some t → convert i = .ok t

private theorem imageList_keeps {I T : Type} [LinearOrder I] (convert : I → Res T) (parts : ℕ) (d : DiveFolder I)
    (s s' : CameraLists I T) (h : Aligned convert s) (hs : imageList parts d s = .ok s') :
    Aligned convert s' ∧ s'.stamps = s.stamps ∧ (s.images ≠ [] → s' = s) := by
  obtain ⟨im, st⟩ := s
  cases im with
  | cons a l => simp only [imageList, Except.ok.injEq] at hs; rw [← hs]; exact ⟨h, rfl, fun _ => rfl⟩
  | nil =>
    have hst : st = [] := by
      have := h.1; simp only [List.length_nil, Nat.le_zero, List.length_eq_zero_iff] at this; exact this
    subst hst
    simp only [imageList, bind, Except.bind] at hs
    cases hf : findImages parts d with
    | error e => rw [hf] at hs; simp at hs
    | ok l =>
      rw [hf] at hs
      simp only [Except.ok.injEq] at hs
      rw [← hs]
      exact ⟨⟨by simp, by simp⟩, rfl, fun hn => absurd rfl hn⟩

private theorem use_keeps {I T : Type} [LinearOrder I] (convert : I → Res T) (parts : ℕ) (s : CameraLists I T) (u : CameraUse I)
    (h : Aligned convert s) : Aligned convert (useCamera convert parts s u) ∧
      (s.images ≠ [] → (useCamera convert parts s u).images = s.images) := by
  cases u with
  | images d =>
    simp only [useCamera]
    cases hi : imageList parts d s with
    | error e => exact ⟨h, fun _ => rfl⟩
    | ok s' =>
      have := imageList_keeps convert parts d s s' h hi
      exact ⟨this.1, fun hn => by rw [this.2.2 hn]; rfl⟩
  | stamps d =>
    simp only [useCamera]
    cases hst : s.stamps with
    | cons t l =>
      have : stampList convert parts d s = (s, none) := by simp only [stampList, hst]
      rw [this]; exact ⟨h, fun _ => rfl⟩
    | nil =>
      cases hi : imageList parts d s with
      | error e =>
        have : stampList convert parts d s = (s, some e) := by simp only [stampList, hst, hi]
        rw [this]; exact ⟨h, fun _ => rfl⟩
      | ok s' =>
        have e : stampList convert parts d s = ({ s' with stamps := (stampLoop convert s'.images).1 }, (stampLoop convert s'.images).2) := by
          simp only [stampList, hst, hi]
        rw [e]
        have hl := loop_prefix convert s'.images
        have hk := imageList_keeps convert parts d s s' h hi
        exact ⟨⟨hl.1, hl.2.1⟩, fun hn => by rw [hk.2.2 hn]⟩

/-- After any history of uses of a camera, with the folder changing in between in any way, the k-th time is the time of the name of
the k-th image, and there are not more times than images. -/
theorem C127_aligned {I T : Type} [LinearOrder I] (convert : I → Res T) (parts : ℕ) (us : List (CameraUse I)) :
    Aligned convert (us.foldl (useCamera convert parts) ⟨[], []⟩) := by
  suffices ∀ s : CameraLists I T, Aligned convert s → Aligned convert (us.foldl (useCamera convert parts) s) from
    this _ ⟨by simp, by simp⟩
  induction us with
  | nil => intro s h; exact h
  | cons u us ih => intro s h; exact ih _ (use_keeps convert parts s u h).1

/-- Once images have been found, the list is the same after any further uses, whatever happens to the folder. -/
theorem C127_stable {I T : Type} [LinearOrder I] (convert : I → Res T) (parts : ℕ) (us vs : List (CameraUse I))
    (h : (us.foldl (useCamera convert parts) ⟨[], []⟩).images ≠ []) :
    ((us ++ vs).foldl (useCamera convert parts) ⟨[], []⟩).images = (us.foldl (useCamera convert parts) ⟨[], []⟩).images := by
  rw [List.foldl_append]
  have h0 := C127_aligned convert parts us
  generalize us.foldl (useCamera convert parts) ⟨[], []⟩ = s at h h0
  induction vs generalizing s with
  | nil => rfl
  | cons v vs ih =>
    have := use_keeps convert parts s v h0
    rw [List.foldl_cons, ih _ (by rw [this.2 h]; exact h) this.1, this.2 h]

/-- A first request for the times that does not fail gives as many times as images. -/
theorem C127_complete_partial {I T : Type} [LinearOrder I] (convert : I → Res T) (parts : ℕ) (d : DiveFolder I) (s : CameraLists I T)
    (h0 : s.stamps = []) (h : (stampList convert parts d s).2 = none) :
    (stampList convert parts d s).1.stamps.length = (stampList convert parts d s).1.images.length := by
  cases hi : imageList parts d s with
  | error e => simp [stampList, h0, hi] at h
  | ok s' =>
    have e : stampList convert parts d s = ({ s' with stamps := (stampLoop convert s'.images).1 }, (stampLoop convert s'.images).2) := by
      simp only [stampList, h0, hi]
    rw [e] at h ⊢
    exact (loop_prefix convert s'.images).2.2 h

/-- The full statement: whenever the times are returned without an exception, after any history, there is one for every image. -/
def OneTimePerImage : Prop :=
  ∀ (convert : ℕ → Res ℕ) (us : List (CameraUse ℕ)) (d : DiveFolder ℕ),
    (stampList convert 1 d (us.foldl (useCamera convert 1) ⟨[], []⟩)).2 = none →
    (stampList convert 1 d (us.foldl (useCamera convert 1) ⟨[], []⟩)).1.stamps.length =
      (stampList convert 1 d (us.foldl (useCamera convert 1) ⟨[], []⟩)).1.images.length

/-- It is false: if the name of the second image cannot be converted, the first request fails, and the next one returns the single
time found before the failure, for two images. -/
theorem C127_complete_false : ¬ OneTimePerImage := by
  intro h
  have := h (fun i => if i = 2 then .error .assertion else .ok (10 * i)) [.stamps ⟨[1, 2], [], []⟩] ⟨[1, 2], [], []⟩ rfl
  exact absurd this (by decide +kernel)

example : (useCamera (fun i => (.ok (10 * i) : Res ℕ)) 1 ⟨[], []⟩ (.stamps ⟨[2, 1], [], []⟩)).stamps = [10, 20] := by decide +kernel

/-- The full statement for the times of modification: an image that exists has a time. -/
def ModificationTimeFound : Prop :=
  ∀ (stat : String → Option ℕ) (p : String × String) (t : ℕ), stat (fullPath p) = some t →
    timeOfName stat (fun _ _ => .error .assertion) (some "m") (bareName p) = .ok t

/-- It is false: the time is looked up for the name without the folder, so for a file in the current folder of the process. -/
theorem C127_modification_false : ¬ ModificationTimeFound := by
  intro h
  have := h (fun n => if n = "raw/a.png" then some 5 else none) ("raw", "a.png") 5 (by decide +kernel)
  have := congrArg Except.toOption this
  exact absurd this (by decide +kernel)

/-- With the format `m` the time is that of modification of the file with this name in the current folder, so the right one if the
process runs in the folder of the images; any other format is applied to the name. -/
theorem C127_modification_partial {T : Type} (stat : String → Option T) (byFormat : String → String → Res T) (p : String × String)
    (t : T) (f : String) :
    (stat p.2 = some t → timeOfName stat byFormat (some "m") (bareName p) = .ok t) ∧
    (f ≠ "m" → byFormat f p.2 = .ok t → timeOfName stat byFormat (some f) (bareName p) = .ok t) := by
  refine ⟨fun h => ?_, fun hf h => ?_⟩
  · simp only [timeOfName, modificationTime, bareName, h, if_true]
  · simp only [timeOfName, bareName, if_neg hf, h]

/-! ## C128: timestamp files -/

/-- If the indices of a timestamp file are distinct, every row gives the time of its index, and other indices are an error. -/
theorem C128_lookup_partial {T : Type} (lines : List (ℤ × T)) (hne : lines ≠ []) (hd : (lines.map (fun r => r.1)).Nodup) :
    ∃ table, readTimestampFile true lines = .ok table ∧ (∀ r ∈ lines, stampOfIndex table r.1 = .ok r.2) ∧
      (∀ i, i ∉ lines.map (fun r => r.1) → stampOfIndex table i = .error .keyError) := by
  refine ⟨some lines, ?_, ?_, ?_⟩
  · cases lines with
    | nil => exact absurd rfl hne
    | cons a l => rfl
  · intro r hr
    have : (lines.filter fun x => x.1 = r.1) = [r] := by
      clear hne
      induction lines with
      | nil => simp at hr
      | cons a l ih =>
        simp only [List.map_cons, List.nodup_cons] at hd
        rcases List.mem_cons.mp hr with rfl | hr
        · rw [List.filter_cons_of_pos (by simp), List.cons_eq_cons]
          refine ⟨rfl, ?_⟩
          rw [List.filter_eq_nil_iff]
          intro x hx
          simp only [decide_eq_true_eq]
          intro hxr
          exact hd.1 (hxr ▸ List.mem_map_of_mem hx)
        · have : a.1 ≠ r.1 := fun he => hd.1 (he ▸ List.mem_map_of_mem hr)
          rw [List.filter_cons_of_neg (by simpa using this)]
          exact ih hd.2 hr
    simp only [stampOfIndex, this]
  · intro i hi
    have : (lines.filter fun x => x.1 = i) = [] := by
      rw [List.filter_eq_nil_iff]
      intro x hx
      simp only [decide_eq_true_eq]
      intro hxi
      exact hi (hxi ▸ List.mem_map_of_mem hx)
    simp only [stampOfIndex, this]

example : (readTimestampFile true [((1 : ℤ), (10 : ℕ)), (2, 20)]).toOption.bind (fun t => (stampOfIndex t 2).toOption) = some 20 := by
  decide +kernel

/-- Without a table, looking up a time ends the program; a file with nothing but its header cannot be read. -/
theorem C128_no_rows {T : Type} (i : ℤ) :
    (∃ table, readTimestampFile false ([] : List (ℤ × T)) = .ok table ∧ stampOfIndex table i = .error .quit) ∧
    readTimestampFile true ([] : List (ℤ × T)) = .error .indexError := ⟨⟨none, rfl, rfl⟩, rfl⟩

/-- The full statement: a camera that is accepted with a timestamp file can give the time of its images. -/
def TimestampFileSuffices : Prop :=
  ∀ (byFormat : String → String → Res ℕ) (stat : String → Option ℕ) (format : Option String),
    cameraEntry "rgb" "png" true format.isSome = .ok true → (∀ f n, ∃ t, byFormat f n = .ok t) → (∀ n, ∃ t, stat n = some t) →
    ∀ name, ∃ t, timeOfName stat byFormat format name = .ok t

/-- It is false: a camera with a timestamp file and no format for the file names is accepted, and then no image has a time. -/
theorem C128_timestamp_file_only_false : ¬ TimestampFileSuffices := by
  intro h
  obtain ⟨t, ht⟩ := h (fun _ _ => .ok 0) (fun _ => some 0) none rfl (fun _ _ => ⟨0, rfl⟩) (fun _ => ⟨0, rfl⟩) "a.png"
  simp [timeOfName] at ht

/-- A camera is accepted exactly if its type is one of the seven and, unless it is a rosbag, it has a timestamp file or a format. -/
theorem C128_accepted (type extension : String) (ts fmt : Bool) :
    (∃ b, cameraEntry type extension ts fmt = .ok b) ↔
      (type ∈ ["grayscale", "rgb", "bgr", "rggb", "grbg", "bggr", "gbrg"] ∧ (extension = "bag" ∨ ts = true ∨ fmt = true)) := by
  unfold cameraEntry cameraTypeOk
  by_cases h : type ∈ ["grayscale", "rgb", "bgr", "rggb", "grbg", "bggr", "gbrg"]
  · have hc : ["grayscale", "rgb", "bgr", "rggb", "grbg", "bggr", "gbrg"].contains type = true := List.contains_iff_mem.mpr h
    rw [hc, if_neg (by decide)]
    by_cases he : extension = "bag"
    · rw [if_pos he]; exact ⟨fun _ => ⟨h, Or.inl he⟩, fun _ => ⟨_, rfl⟩⟩
    · rw [if_neg he]
      cases ts <;> cases fmt <;> simp [he, h]
  · have hc : ["grayscale", "rgb", "bgr", "rggb", "grbg", "bggr", "gbrg"].contains type = false := by
      rw [Bool.eq_false_iff]; intro hh; exact h (List.contains_iff_mem.mp hh)
    rw [hc, if_pos rfl]
    simp only [reduceCtorEq, exists_false, h, false_and]

end Oplab.Props
