import Verif.Spec.NavExport
import Mathlib.Tactic.Linarith
import Mathlib.Tactic.Ring
import Mathlib.Tactic.SplitIfs
import Mathlib.Data.List.Nodup

/-!
C203: reduced navigation files have exactly the rows of the images in the folder.
-/

namespace Oplab.Props
open Oplab Oplab.Spec

private theorem endsIn_iff (f ext : String) : endsIn f ext = true ↔ ext.toList <:+ f.toList := by
  rw [endsIn, List.isSuffixOf_iff_suffix]

private theorem endsIn_append (s ext : String) : endsIn (s ++ ext) ext = true := by
  rw [endsIn_iff, String.toList_append]
  exact List.suffix_append _ _

private theorem any_iff (files : List String) (ext : String) :
    (files.any fun f => endsIn f ext) = true ↔ ∃ f ∈ files, ext.toList <:+ f.toList := by
  simp only [List.any_eq_true, endsIn_iff]

private theorem folderKind_ok (files : List String) (ext : String) : folderKind files = .ok ext ↔ OneKind files ext := by
  unfold folderKind OneKind
  rw [show (".png" : String) = ".png" from rfl]
  by_cases h1 : ∃ f ∈ files, (".png" : String).toList <:+ f.toList
  · by_cases h2 : ∃ f ∈ files, (".jpg" : String).toList <:+ f.toList
    · simp only [(any_iff files ".png").mpr h1, (any_iff files ".jpg").mpr h2, Bool.and_self, if_true, reduceCtorEq, false_iff]
      rintro ⟨-, -, h⟩
      have e1 := h ".png" (Or.inl rfl) h1
      have e2 := h ".jpg" (Or.inr rfl) h2
      rw [← e2] at e1
      exact absurd e1 (by decide)
    · have h2' : (files.any fun f => endsIn f ".jpg") = false := by
        rw [Bool.eq_false_iff, Ne, any_iff]; exact h2
      simp only [(any_iff files ".png").mpr h1, h2', Bool.and_false, Bool.false_eq_true, if_false, if_true, Except.ok.injEq]
      constructor
      · rintro rfl
        refine ⟨Or.inl rfl, h1, ?_⟩
        rintro other (rfl | rfl) ho
        · rfl
        · exact absurd ho h2
      · rintro ⟨h3, h4, h5⟩
        exact h5 ".png" (Or.inl rfl) h1
  · have h1' : (files.any fun f => endsIn f ".png") = false := by
      rw [Bool.eq_false_iff, Ne, any_iff]; exact h1
    by_cases h2 : ∃ f ∈ files, (".jpg" : String).toList <:+ f.toList
    · simp only [(any_iff files ".jpg").mpr h2, h1', Bool.false_and, Bool.false_eq_true, if_false, if_true, Except.ok.injEq]
      constructor
      · rintro rfl
        refine ⟨Or.inr rfl, h2, ?_⟩
        rintro other (rfl | rfl) ho
        · exact absurd ho h1
        · rfl
      · rintro ⟨h3, h4, h5⟩
        exact h5 ".jpg" (Or.inr rfl) h2
    · have h2' : (files.any fun f => endsIn f ".jpg") = false := by
        rw [Bool.eq_false_iff, Ne, any_iff]; exact h2
      simp only [h2', h1', Bool.false_and, Bool.false_eq_true, if_false, reduceCtorEq, false_iff]
      rintro ⟨rfl | rfl, h4, -⟩
      · exact h1 h4
      · exact h2 h4

private theorem kind_png (files : List String) (h : (files.any fun f => endsIn f ".png") = true)
    (h' : (files.any fun f => endsIn f ".jpg") = false) : OneKind files ".png" := by
  rw [← folderKind_ok]
  simp [folderKind, h, h']

private theorem sortByTime_spec {K : Type} [LinearOrder K] {α : Type} (l : List (ExportRow K × α)) :
    (sortByTime l).Perm l ∧ (sortByTime l).Pairwise fun a b => a.1.time ≤ b.1.time := by
  refine ⟨List.mergeSort_perm _ _, ?_⟩
  have := List.pairwise_mergeSort (le := fun (a b : ExportRow K × α) => decide (a.1.time ≤ b.1.time))
    (fun a b c h1 h2 => by
      simp only [decide_eq_true_eq] at h1 h2 ⊢
      exact le_trans h1 h2)
    (fun a b => by
      simp only [Bool.or_eq_true, decide_eq_true_eq]
      exact le_total _ _) l
  exact this.imp fun h => by simpa using h

/-- The rows of a sorted and filtered table of pairs. -/
private theorem sorted_pairs {K : Type} [LinearOrder K] (name : ExportRow K → String) (keep : ExportRow K → Prop)
    [DecidablePred keep] (rows : List (ExportRow K)) :
    ∃ sel, SortedRows keep rows sel ∧
      sortByTime ((rows.filter fun r => decide (keep r)).map fun r => (r, name r)) = sel.map fun r => (r, name r) := by
  obtain ⟨hp, hs⟩ := sortByTime_spec ((rows.filter fun r => decide (keep r)).map fun r => (r, name r))
  set t := sortByTime ((rows.filter fun r => decide (keep r)).map fun r => (r, name r)) with ht
  have hmap : t = (t.map Prod.fst).map fun r => (r, name r) := by
    rw [List.map_map]
    conv_lhs => rw [← List.map_id t]
    apply List.map_congr_left
    intro q hq
    obtain ⟨r, -, hr⟩ := List.mem_map.mp (hp.mem_iff.mp hq)
    subst hr
    rfl
  refine ⟨t.map Prod.fst, ⟨?_, ?_⟩, hmap⟩
  · have := hp.map Prod.fst
    rw [List.map_map] at this
    simpa [Function.comp_def] using this
  · rw [List.pairwise_map]
    exact hs

private theorem filter_pairs {K : Type} (name : ExportRow K → String) (p : String → Bool) (rows : List (ExportRow K)) :
    (rows.map fun r => (r, name r)).filter (fun q => p q.2) = (rows.filter fun r => p (name r)).map fun r => (r, name r) := by
  rw [List.filter_map]
  rfl

private theorem mem_images (files : List String) (s ext : String) :
    s ++ ext ∈ files.filter (fun f => endsIn f ext) ↔ s ++ ext ∈ files := by
  rw [List.mem_filter, endsIn_append]
  simp

private theorem folder_iff {K : Type} [LinearOrder K] (stem base : String → String) (short long force outputExists : Bool)
    (nav : ExportNav K) (files header : List String) (out : List (List String)) :
    simplifyNav stem base short long force outputExists (some nav) (some files) = .ok (.written header out) ↔
      ¬ (short = true ∧ long = true) ∧ (outputExists = true → force = true) ∧ "relative_path" ∈ nav.columns ∧
      "timestamp [s]" ∈ nav.columns ∧ header = simpleColumns short long ∧ (∀ c ∈ header, c ≠ "filename" → c ∈ nav.columns) ∧
      ∃ ext, OneKind files ext ∧ (∃ r ∈ nav.rows, stem r.path ++ ext ∈ files) ∧
        ∃ sel, sortByTime ((nav.rows.filter fun r => decide (stem r.path ++ ext ∈ files)).map fun r => (r, stem r.path ++ ext))
            = sel.map (fun r => (r, stem r.path ++ ext)) ∧
          SortedRows (fun r => stem r.path ++ ext ∈ files) nav.rows sel ∧
          out = sel.map fun r => header.map fun c => if c = "filename" then stem r.path ++ ext else r.cells c := by
  unfold simplifyNav
  by_cases h1 : short = true ∧ long = true
  · simp [h1]
  rw [if_neg (by simpa using h1)]
  by_cases h2 : outputExists = true ∧ force = false
  · rw [if_pos (by simp [h2])]
    simp [h2]
  rw [if_neg (by simpa using h2)]
  have h2' : outputExists = true → force = true := by
    intro h; cases force
    · exact absurd ⟨h, rfl⟩ h2
    · rfl
  simp only [h1, not_false_eq_true, true_and]
  by_cases h3 : nav.rows = []
  · simp [h3]
  rw [if_neg h3]
  cases hk : folderKind files with
  | error e =>
    have hno : ∀ ext, ¬ OneKind files ext := fun ext h => by
      rw [← folderKind_ok, hk] at h; cases h
    have he : e = .bothKinds ∨ e = .noImages := by
      unfold folderKind at hk
      simp only at hk
      split_ifs at hk <;> cases hk <;> simp
    constructor
    · intro h
      rcases he with rfl | rfl <;> simp at h
    · rintro ⟨-, -, -, -, -, ext, h, -⟩
      exact absurd h (hno ext)
  | ok ext =>
    have hext := (folderKind_ok files ext).mp hk
    have huniq : ∀ ext', OneKind files ext' → ext' = ext := fun ext' h => hext.2.2 ext' h.1 h.2.1
    simp only
    by_cases h4 : "relative_path" ∈ nav.columns
    · rw [if_neg (by simpa using h4)]
      have hf : ((nav.rows.map fun r => (r, stem r.path ++ ext)).filter fun q =>
          decide (q.2 ∈ files.filter fun f => endsIn f ext)) =
          (nav.rows.filter fun r => decide (stem r.path ++ ext ∈ files)).map fun r => (r, stem r.path ++ ext) := by
        rw [filter_pairs (fun r => stem r.path ++ ext) (fun s => decide (s ∈ files.filter fun f => endsIn f ext))]
        congr 1
        apply List.filter_congr
        intro r _
        rw [decide_eq_decide]
        exact mem_images files _ ext
      rw [hf]
      by_cases h5 : ∃ r ∈ nav.rows, stem r.path ++ ext ∈ files
      · rw [if_neg (by
          obtain ⟨r, hr, hr'⟩ := h5
          intro h
          have : r ∈ nav.rows.filter fun r => decide (stem r.path ++ ext ∈ files) := by simp [hr, hr']
          rw [List.map_eq_nil_iff] at h
          rw [h] at this
          simp at this)]
        obtain ⟨sel, hsel, hsel'⟩ := sorted_pairs (fun r => stem r.path ++ ext) (fun r => stem r.path ++ ext ∈ files) nav.rows
        have hinj : ∀ s' : List (ExportRow K), (s'.map fun r => (r, stem r.path ++ ext)) = (sel.map fun r => (r, stem r.path ++ ext)) →
            s' = sel := by
          intro s' h
          have := congrArg (List.map Prod.fst) h
          simpa [Function.comp_def] using this
        by_cases h6 : "timestamp [s]" ∉ nav.columns ∨ ∃ c ∈ simpleColumns short long, c ≠ "filename" ∧ c ∉ nav.columns
        · rw [if_pos h6]
          simp only [reduceCtorEq, false_iff]
          rintro ⟨-, -, h7, rfl, h8, -⟩
          rcases h6 with h6 | ⟨c, hc, hc', hc''⟩
          · exact h6 h7
          · exact hc'' (h8 c hc hc')
        · rw [if_neg h6]
          push Not at h6
          rw [hsel']
          simp only [Except.ok.injEq, ExportEnd.written.injEq, List.map_map, Function.comp_def]
          constructor
          · rintro ⟨rfl, rfl⟩
            exact ⟨h2', h4, h6.1, rfl, h6.2, ext, hext, h5, sel, hsel', hsel, rfl⟩
          · rintro ⟨-, -, -, rfl, -, ext', h7, -, sel', h8, -, h9⟩
            obtain rfl := huniq ext' h7
            rw [hsel'] at h8
            obtain rfl := hinj sel' h8.symm
            exact ⟨rfl, h9.symm⟩
      · rw [if_pos (by
          rw [List.map_eq_nil_iff, List.filter_eq_nil_iff]
          intro r hr h
          exact h5 ⟨r, hr, by simpa using h⟩)]
        simp only [Except.ok.injEq, reduceCtorEq, false_iff]
        rintro ⟨-, -, -, -, -, ext', h7, h8, -⟩
        obtain rfl := huniq ext' h7
        exact h5 h8
    · rw [if_pos (by simpa using h4)]
      simp [h4]

/-- C203: the file for a folder has exactly the rows of the navigation file whose image, with the ending of the folder's
images, is in the folder, each once and ordered by time; every cell has the value of the row, beside the name of the image.
A file that existed has been replaced only if that was asked for. -/
theorem C203_folder {K : Type} [LinearOrder K] (stem base : String → String) (short long force outputExists : Bool)
    (nav : ExportNav K) (files header : List String) (out : List (List String))
    (h : simplifyNav stem base short long force outputExists (some nav) (some files) = .ok (.written header out)) :
    (outputExists = true → force = true) ∧ header = simpleColumns short long ∧
      ∃ ext, OneKind files ext ∧ ∃ sel, SortedRows (fun r => stem r.path ++ ext ∈ files) nav.rows sel ∧
          out = sel.map fun r => header.map fun c => if c = "filename" then stem r.path ++ ext else r.cells c := by
  obtain ⟨-, h1, -, -, h2, -, ext, h3, -, sel, -, h4, h5⟩ := (folder_iff stem base short long force outputExists nav files header out).mp h
  exact ⟨h1, h2, ext, h3, sel, h4, h5⟩

/-- C203: the columns that are written: with the short option the position only, with the long one also northing and easting. -/
theorem C203_columns : (∀ long, simpleColumns true long = ["filename", "latitude [deg]", "longitude [deg]"]) ∧
    simpleColumns false false = ["filename", "timestamp [s]", "latitude [deg]", "longitude [deg]", "depth [m]", "altitude [m]", "roll [deg]",
      "pitch [deg]", "heading [deg]"] ∧
    simpleColumns false true = ["filename", "timestamp [s]", "latitude [deg]", "longitude [deg]", "depth [m]", "altitude [m]", "roll [deg]",
      "pitch [deg]", "heading [deg]", "northing [m]", "easting [m]"] := ⟨fun _ => rfl, rfl, rfl⟩

/-- C203: a file is written exactly if the options agree, no file is in the way, the folder has images of one kind, at least
one of them in the navigation file, and this file has the columns that are needed. -/
theorem C203_written {K : Type} [LinearOrder K] (stem base : String → String) (short long force outputExists : Bool)
    (nav : ExportNav K) (files : List String) :
    (∃ header out, simplifyNav stem base short long force outputExists (some nav) (some files) = .ok (.written header out)) ↔
      ¬ (short = true ∧ long = true) ∧ (outputExists = true → force = true) ∧ "relative_path" ∈ nav.columns ∧
      "timestamp [s]" ∈ nav.columns ∧ (∀ c ∈ simpleColumns short long, c ≠ "filename" → c ∈ nav.columns) ∧
      ∃ ext, OneKind files ext ∧ ∃ r ∈ nav.rows, stem r.path ++ ext ∈ files := by
  constructor
  · rintro ⟨header, out, h⟩
    obtain ⟨h0, h1, h2, h3, rfl, h5, ext, h6, h7, -⟩ := (folder_iff _ _ _ _ _ _ _ _ _ _).mp h
    exact ⟨h0, h1, h2, h3, h5, ext, h6, h7⟩
  · rintro ⟨h0, h1, h2, h3, h5, ext, h6, h7⟩
    obtain ⟨sel, hsel, hsel'⟩ := sorted_pairs (fun r => stem r.path ++ ext) (fun r => stem r.path ++ ext ∈ files) nav.rows
    exact ⟨_, _, (folder_iff _ _ _ _ _ _ _ _ _ _).mpr ⟨h0, h1, h2, h3, rfl, h5, ext, h6, h7, sel, hsel', hsel, rfl⟩⟩

/-- C203: without a folder all rows are written, with the names of the images as they are. -/
theorem C203_all {K : Type} [LinearOrder K] (stem base : String → String) (short long force outputExists : Bool)
    (nav : ExportNav K) (header : List String) (out : List (List String))
    (h : simplifyNav stem base short long force outputExists (some nav) none = .ok (.written header out)) :
    (outputExists = true → force = true) ∧ header = simpleColumns short long ∧
      ∃ sel, SortedRows (fun _ => True) nav.rows sel ∧
        out = sel.map fun r => header.map fun c => if c = "filename" then base r.path else r.cells c := by
  unfold simplifyNav at h
  by_cases h1 : short = true ∧ long = true
  · rw [if_pos (by simpa using h1)] at h; cases h
  rw [if_neg (by simpa using h1)] at h
  by_cases h2 : outputExists = true ∧ force = false
  · rw [if_pos (by simpa using h2)] at h; cases h
  rw [if_neg (by simpa using h2)] at h
  have h2' : outputExists = true → force = true := by
    intro h'; cases force
    · exact absurd ⟨h', rfl⟩ h2
    · rfl
  simp only at h
  split_ifs at h with h3 h4 h5 <;> cases h
  obtain ⟨sel, hsel, hsel'⟩ := sorted_pairs (fun r => base r.path) (fun _ => True) nav.rows
  simp only [decide_true, List.filter_true] at hsel'
  refine ⟨h2', rfl, sel, hsel, ?_⟩
  rw [hsel', List.map_map]
  rfl

/-- C203: if the images of the navigation file have different names (without endings), every image has one row. -/
theorem C203_once_partial {K : Type} [LinearOrder K] (stem base : String → String) (short long force outputExists : Bool)
    (nav : ExportNav K) (files header : List String) (out : List (List String))
    (hn : (nav.rows.map fun r => stem r.path).Nodup)
    (h : simplifyNav stem base short long force outputExists (some nav) (some files) = .ok (.written header out)) :
    (out.map fun r => r[0]?).Nodup := by
  obtain ⟨-, h1, ext, -, sel, h2, h3⟩ := C203_folder stem base short long force outputExists nav files header out h
  have hh : ∃ tl, header = "filename" :: tl := by
    rw [h1]
    unfold simpleColumns
    split_ifs <;> exact ⟨_, rfl⟩
  obtain ⟨tl, rfl⟩ := hh
  rw [h3, List.map_map]
  have e : ((fun r : List String => r[0]?) ∘ fun r : ExportRow K =>
      ("filename" :: tl).map fun c => if c = "filename" then stem r.path ++ ext else r.cells c) = fun r => some (stem r.path ++ ext) := by
    funext r
    simp
  rw [e]
  have hsel : (sel.map fun r => stem r.path).Nodup := by
    have hp := h2.1.map fun r => stem r.path
    rw [hp.nodup_iff]
    exact hn.sublist (List.filter_sublist.map _)
  have : (sel.map fun r => some (stem r.path ++ ext)) = (sel.map fun r => stem r.path).map fun s => some (s ++ ext) := by
    rw [List.map_map]; rfl
  rw [this]
  apply List.Nodup.map _ hsel
  intro a b hab
  have hab' := Option.some.inj hab
  have := congrArg String.toList hab'
  rw [String.toList_append, String.toList_append, List.append_left_inj] at this
  exact String.toList_injective this

private def row0 (path : String) (t : ℚ) : ExportRow ℚ := ⟨path, t, fun c => c⟩
private def nav0 : ExportNav ℚ :=
  ⟨["relative_path", "timestamp [s]", "latitude [deg]", "longitude [deg]"], [row0 "b" 2, row0 "a" 1, row0 "c" 3]⟩

/-- C203: not in general: images of the same name in two folders (as those of two cameras) both claim the image. -/
theorem C203_once_false : ¬ OneRowForEachImage := by
  intro h
  obtain ⟨header, out, hw⟩ := (C203_written (fun _ => "i") id true false false false nav0 ["i.png"]).mpr
    ⟨by simp, by simp, by simp [nav0], by simp [nav0], by simp [simpleColumns, nav0], ".png",
      kind_png _ (by decide +kernel) (by decide +kernel), row0 "b" 2, by simp [nav0], by decide +kernel⟩
  have hnd := h _ _ _ _ _ _ _ _ _ _ hw
  obtain ⟨-, h1, ext, h2, sel, h3, h4⟩ := C203_folder _ _ _ _ _ _ _ _ _ _ hw
  have hext : ext = ".png" := by
    have h5 := (folderKind_ok _ _).mpr h2
    rw [(folderKind_ok ["i.png"] ".png").mpr (kind_png _ (by decide +kernel) (by decide +kernel))] at h5
    exact (Except.ok.inj h5).symm
  subst hext
  have hlen : sel.length = 3 := by
    rw [h3.1.length_eq]
    decide +kernel
  have hh : header = ["filename", "latitude [deg]", "longitude [deg]"] := by rw [h1]; rfl
  rw [h4, hh, List.map_map] at hnd
  match sel, hlen with
  | [a, b, c], _ => simp at hnd

/-- C203: the file for Squidle has exactly the rows whose image is in the folder, each once and ordered by time, with the
columns of Squidle filled from the ones they stand for. -/
theorem C203_squidle {K : Type} [LinearOrder K] (stem : String → String) (utc : K → String) (force outputExists : Bool)
    (nav : ExportNav K) (files header : List String) (out : List (List String))
    (h : squidleNav stem utc force outputExists (some nav) files = .ok (.written header out)) :
    (outputExists = true → force = true) ∧
      header = ["key", "pose.lat", "pose.lon", "pose.dep", "pose.alt", "timestamp_start", "pose.data.northing_m",
        "pose.data.easting_m", "pose.data.roll", "pose.data.pitch", "pose.data.heading"] ∧
      ∃ ext, OneKind files ext ∧ ∃ sel, SortedRows (fun r => stem r.path ++ ext ∈ files) nav.rows sel ∧
        out = sel.map fun r => [stem r.path, r.cells "latitude [deg]", r.cells "longitude [deg]", r.cells "depth [m]",
          r.cells "altitude [m]", utc r.time, r.cells "northing [m]", r.cells "easting [m]", r.cells "roll [deg]",
          r.cells "pitch [deg]", r.cells "heading [deg]"] := by
  unfold squidleNav at h
  by_cases h2 : outputExists = true ∧ force = false
  · rw [if_pos (by simpa using h2)] at h; cases h
  rw [if_neg (by simpa using h2)] at h
  have h2' : outputExists = true → force = true := by
    intro h'; cases force
    · exact absurd ⟨h', rfl⟩ h2
    · rfl
  simp only at h
  by_cases h3 : nav.rows = []
  · rw [if_pos h3] at h; cases h
  rw [if_neg h3] at h
  by_cases h4 : "relative_path" ∉ nav.columns
  · rw [if_pos h4] at h; cases h
  rw [if_neg h4] at h
  cases hk : folderKind files with
  | error e =>
    rw [hk] at h
    have he : e = .bothKinds ∨ e = .noImages := by
      unfold folderKind at hk
      simp only at hk
      split_ifs at hk <;> cases hk <;> simp
    rcases he with rfl | rfl <;> cases h
  | ok ext =>
    rw [hk] at h
    simp only at h
    have hf : ((nav.rows.map fun r => (r, stem r.path)).filter fun q =>
        decide (q.2 ++ ext ∈ files.filter fun f => endsIn f ext)) =
        (nav.rows.filter fun r => decide (stem r.path ++ ext ∈ files)).map fun r => (r, stem r.path) := by
      rw [filter_pairs (fun r => stem r.path) (fun s => decide (s ++ ext ∈ files.filter fun f => endsIn f ext))]
      congr 1
      apply List.filter_congr
      intro r _
      rw [decide_eq_decide]
      exact mem_images files _ ext
    rw [hf] at h
    split_ifs at h with h5 h6 <;> cases h
    obtain ⟨sel, hsel, hsel'⟩ := sorted_pairs (fun r => stem r.path) (fun r => stem r.path ++ ext ∈ files) nav.rows
    refine ⟨h2', rfl, ext, (folderKind_ok _ _).mp hk, sel, hsel, ?_⟩
    rw [hsel', List.map_map]
    apply List.map_congr_left
    intro r _
    simp [squidleColumns, squidleNames]

/-- C203: an image is reported to have no thumbnail exactly if there is none of its name. -/
theorem C203_thumbnails (images thumbnails : List String) (f : String) :
    f ∈ withoutThumbnail images thumbnails ↔ f ∈ images ∧ f ++ "_THM" ∉ thumbnails := by
  simp [withoutThumbnail]

/-- C203: the degrees and minutes of the bounding box add up to the angle, the minutes are less than 60 and neither part
has the opposite sign. -/
theorem C203_degrees {K : Type} [Field K] [LinearOrder K] [IsStrictOrderedRing K] [FloorRing K] (deg : K) :
    ((degToDegMin deg).1 : K) + (degToDegMin deg).2 / 60 = deg ∧ |(degToDegMin deg).2| < 60 ∧
      (0 ≤ deg → 0 ≤ (degToDegMin deg).1 ∧ 0 ≤ (degToDegMin deg).2) ∧
      (deg ≤ 0 → (degToDegMin deg).1 ≤ 0 ∧ (degToDegMin deg).2 ≤ 0) := by
  unfold degToDegMin
  rcases le_or_gt 0 deg with h | h
  · simp only [ge_iff_le, h, if_true]
    have h1 := Int.floor_le deg
    have h2 := Int.lt_floor_add_one deg
    have h3 : 0 ≤ ⌊deg⌋ := Int.floor_nonneg.mpr h
    simp only [Int.cast_one, mul_one, one_mul]
    refine ⟨by ring, ?_, fun _ => ⟨h3, by linarith⟩, fun h' => ?_⟩
    · rw [abs_lt]; constructor <;> linarith
    · have : deg = 0 := le_antisymm h' h
      subst this
      simp
  · simp only [ge_iff_le, not_le.mpr h, if_false]
    have h1 := Int.floor_le (deg * ((-1 : ℤ) : K))
    have h2 := Int.lt_floor_add_one (deg * ((-1 : ℤ) : K))
    have h3 : 0 ≤ ⌊deg * ((-1 : ℤ) : K)⌋ := Int.floor_nonneg.mpr (by push_cast; linarith)
    push_cast at h1 h2 h3 ⊢
    refine ⟨by ring, ?_, fun h' => h'.elim, fun _ => ⟨by linarith, by linarith⟩⟩
    rw [abs_lt]; constructor <;> linarith

example : ∃ header out, simplifyNav id id true false true true (some nav0) (some ["a.png", "b.png"]) = .ok (.written header out) :=
  (C203_written id id true false true true nav0 ["a.png", "b.png"]).mpr
    ⟨by simp, by simp, by simp [nav0], by simp [nav0], by simp [simpleColumns, nav0], ".png",
      kind_png _ (by decide +kernel) (by decide +kernel), row0 "b" 2, by simp [nav0], by decide +kernel⟩

example : (nav0.rows.map fun r => id r.path).Nodup := by decide +kernel

end Oplab.Props
