import Verif.Spec.Correct
import Mathlib.Tactic.Linarith
import Mathlib.Tactic.FieldSimp
import Mathlib.Tactic.Ring
import Mathlib.Tactic.NormNum
import Mathlib.Tactic.Positivity
import Mathlib.Data.List.Perm.Basic
import Mathlib.Data.List.Nodup

/-! # C52 to C57, C63, C64, C77, C78: image selection, depth maps, bins, guards, output -/

namespace Oplab.Props
open Oplab Oplab.Spec

/-! ## C57 -/

/-- C57: the rows kept are exactly those whose image name is among the names on the user's list, in order. -/
theorem C57_trim {K : Type} (stem : String → String) (lines : List String) (rows : List (NavRow K)) :
    (trimRows stem lines rows).Sublist rows ∧
    (∀ r, r ∈ trimRows stem lines rows ↔ r ∈ rows ∧ ∃ l ∈ lines, stem l = stem r.path) ∧
    trimRows stem lines rows = rows.filter fun r => (lines.map stem).contains (stem r.path) := by
  have h : trimRows stem lines rows = rows.filter fun r => (lines.map stem).contains (stem r.path) := by
    unfold trimRows
    apply List.filter_congr
    intro r hr
    rw [Bool.eq_iff_iff]
    simp only [List.contains_iff_mem, List.mem_filter, List.mem_map]
    exact ⟨fun h => h.2, fun h => ⟨⟨r, hr, rfl⟩, h⟩⟩
  refine ⟨?_, ?_, h⟩
  · rw [h]; exact List.filter_sublist
  · intro r
    rw [h, List.mem_filter]
    simp only [List.contains_iff_mem, List.mem_map]

example : trimRows (K := ℚ) id ["a"] [⟨"b", .nan, 0⟩, ⟨"a", .val 1, 0⟩] = [⟨"a", .val 1, 0⟩] := by
  simp [trimRows]

/-! ## C52 -/

section Select
variable {K : Type} [LinearOrder K]

private def keep (d : ImgDive K) (r : NavRow K) : Option (ImgRef K × K) :=
  match r.alt with
  | .val a => if d.altMin < a ∧ a < d.altMax then some (refOf d r, a) else none
  | _ => none

private theorem fold_keep (d : ImgDive K) (rows : List (NavRow K)) (s : ImgSel K) :
    rows.foldl (selectRow d) s =
      ⟨s.images ++ (rows.filterMap (keep d)).map Prod.fst, s.alts ++ (rows.filterMap (keep d)).map Prod.snd⟩ := by
  induction rows generalizing s with
  | nil => simp
  | cons r rows ih =>
    rw [List.foldl_cons, ih, List.filterMap_cons]
    cases ha : r.alt with
    | none => simp [selectRow, keep, ha]
    | nan => simp [selectRow, keep, ha]
    | val a =>
      simp only [selectRow, keep, ha]
      by_cases h : d.altMin < a ∧ a < d.altMax
      · rw [if_pos h, if_pos h]; simp [refOf]
      · rw [if_neg h, if_neg h]

private theorem notNone_keep (d : ImgDive K) (rows : List (NavRow K)) :
    (rows.filter (·.alt.notNone)).filterMap (keep d) = rows.filterMap (keep d) := by
  induction rows with
  | nil => rfl
  | cons r rows ih =>
    cases ha : r.alt with
    | none =>
      rw [List.filter_cons_of_neg (by simp [ha, AltCell.notNone]), ih, List.filterMap_cons]
      simp [keep, ha]
    | nan =>
      rw [List.filter_cons_of_pos (by simp [ha, AltCell.notNone]), List.filterMap_cons, List.filterMap_cons, ih]
    | val a =>
      rw [List.filter_cons_of_pos (by simp [ha, AltCell.notNone]), List.filterMap_cons, List.filterMap_cons, ih]

private def listed (stem : String → String) (d : ImgDive K) (r : NavRow K) : Bool :=
  match d.userList with
  | none => true
  | some lines => (lines.map stem).contains (stem r.path)

omit [LinearOrder K] in
private theorem listedRows_eq (stem : String → String) (d : ImgDive K) (rows) (h : listedRows stem d = .ok rows) :
    rows = d.rows.filter (listed stem d) := by
  unfold listedRows at h
  cases hu : d.userList with
  | none =>
    rw [hu] at h
    simp only [Except.ok.injEq] at h
    rw [← h]
    exact (List.filter_eq_self.2 (fun r _ => by simp [listed, hu])).symm
  | some lines =>
    rw [hu] at h
    simp only [] at h
    split_ifs at h with he
    simp only [Except.ok.injEq] at h
    rw [← h, (C57_trim stem lines d.rows).2.2]
    apply List.filter_congr
    intro r _
    simp [listed, hu]

private theorem select_eq (stem : String → String) (d : ImgDive K) (sel : ImgSel K)
    (h : selectImages stem d = .ok sel) :
    sel.images = (((d.rows.filter (listed stem d)).filter fun r => d.bag || d.onDisk r.path).filterMap (keep d)).map
        Prod.fst ∧
    sel.alts = (((d.rows.filter (listed stem d)).filter fun r => d.bag || d.onDisk r.path).filterMap (keep d)).map
        Prod.snd := by
  unfold selectImages at h
  split_ifs at h with h0
  cases hl : listedRows stem d with
  | error e => rw [hl] at h; simp [bind, Except.bind] at h
  | ok rows =>
    rw [hl] at h
    simp only [bind, Except.bind] at h
    cases hx : existingRows d rows with
    | error e => rw [hx] at h; simp at h
    | ok ex =>
      rw [hx] at h
      simp only [] at h
      have hex : ex = rows.filter fun r => d.bag || d.onDisk r.path := by
        unfold existingRows at hx
        simp only [] at hx
        split_ifs at hx
        simpa using hx.symm
      split_ifs at h
      simp only [Except.ok.injEq] at h
      rw [← h, fold_keep, notNone_keep, hex, listedRows_eq stem d rows hl]
      simp

private theorem mem_keep (stem : String → String) (d : ImgDive K) (p : ImgRef K × K) :
    p ∈ ((d.rows.filter (listed stem d)).filter fun r => d.bag || d.onDisk r.path).filterMap (keep d) ↔
      ∃ r ∈ d.rows, Usable stem d r p.2 ∧ p.1 = refOf d r := by
  simp only [List.mem_filterMap, List.mem_filter]
  constructor
  · rintro ⟨r, ⟨⟨hr, hl⟩, hx⟩, hk⟩
    unfold keep at hk
    cases ha : r.alt with
    | none => rw [ha] at hk; simp at hk
    | nan => rw [ha] at hk; simp at hk
    | val a =>
      rw [ha] at hk
      simp only [] at hk
      split_ifs at hk with hb
      simp only [Option.some.injEq] at hk
      subst hk
      refine ⟨r, hr, ⟨?_, by simpa using hx, ha, hb.1, hb.2⟩, rfl⟩
      intro lines hu
      simp only [listed, hu, List.contains_iff_mem, List.mem_map] at hl
      exact hl
  · rintro ⟨r, hr, ⟨h1, h2, h3, h4, h5⟩, h6⟩
    refine ⟨r, ⟨⟨hr, ?_⟩, by simpa using h2⟩, ?_⟩
    · unfold listed
      cases hu : d.userList with
      | none => rfl
      | some lines =>
        simp only [List.contains_iff_mem, List.mem_map]
        exact h1 lines hu
    · unfold keep
      rw [h3]
      simp only []
      rw [if_pos ⟨h4, h5⟩, ← h6]

/-- C52: the two lists have the same length; the i-th image and the i-th altitude come from the same usable row of
the navigation table; and every usable row is selected. -/
theorem C52_aligned (stem : String → String) (d : ImgDive K) (sel : ImgSel K) (h : selectImages stem d = .ok sel) :
    sel.images.length = sel.alts.length ∧
    (∀ (i : ℕ) im a, sel.images[i]? = some im → sel.alts[i]? = some a →
      ∃ r ∈ d.rows, Usable stem d r a ∧ im = refOf d r) ∧
    ∀ r ∈ d.rows, ∀ a, Usable stem d r a →
      ∃ i : ℕ, sel.images[i]? = some (refOf d r) ∧ sel.alts[i]? = some a := by
  obtain ⟨h1, h2⟩ := select_eq stem d sel h
  rw [h1, h2]
  refine ⟨by simp, ?_, ?_⟩
  · intro i im a hi ha
    rw [List.getElem?_map] at hi ha
    cases hp : (((d.rows.filter (listed stem d)).filter fun r => d.bag || d.onDisk r.path).filterMap (keep d))[i]? with
    | none => rw [hp] at hi; simp at hi
    | some p =>
      rw [hp] at hi ha
      simp only [Option.map_some, Option.some.injEq] at hi ha
      obtain ⟨r, hr, hu, he⟩ := (mem_keep stem d p).1 (List.mem_of_getElem? hp)
      exact ⟨r, hr, ha ▸ hu, hi ▸ he⟩
  · intro r hr a hu
    have : (refOf d r, a) ∈ ((d.rows.filter (listed stem d)).filter fun r => d.bag || d.onDisk r.path).filterMap
        (keep d) := (mem_keep stem d _).2 ⟨r, hr, hu, rfl⟩
    obtain ⟨i, hi⟩ := List.getElem?_of_mem this
    exact ⟨i, by rw [List.getElem?_map, hi]; rfl, by rw [List.getElem?_map, hi]; rfl⟩

/-- C52: images come in the order of the navigation table. -/
theorem C52_order (stem : String → String) (d : ImgDive K) (sel : ImgSel K) (h : selectImages stem d = .ok sel) :
    sel.images.Sublist (d.rows.map (refOf d)) := by
  rw [(select_eq stem d sel h).1]
  have key : ∀ rows : List (NavRow K), ((rows.filterMap (keep d)).map Prod.fst).Sublist (rows.map (refOf d)) := by
    intro rows
    induction rows with
    | nil => simp
    | cons r rows ih =>
      rw [List.filterMap_cons, List.map_cons]
      cases hk : keep d r with
      | none => exact ih.trans (List.sublist_cons_self _ _)
      | some p =>
        have : p.1 = refOf d r := by
          unfold keep at hk
          cases ha : r.alt with
          | none => rw [ha] at hk; simp at hk
          | nan => rw [ha] at hk; simp at hk
          | val a =>
            rw [ha] at hk
            simp only [] at hk
            split_ifs at hk
            simp only [Option.some.injEq] at hk
            rw [← hk]
        simp only [List.map_cons, this]
        exact ih.cons_cons _
  exact (key _).trans ((List.filter_sublist.trans List.filter_sublist).map _)

/-- C52: the selection fails, with a message, exactly if no row is on the user's list with an existing image and an
altitude other than None. -/
theorem C52_failure (stem : String → String) (d : ImgDive K) :
    (selectImages stem d = .error .quit ∨ ∃ sel, selectImages stem d = .ok sel) ∧
    (selectImages stem d = .error .quit ↔
      ¬ ∃ r ∈ d.rows, (∀ lines, d.userList = some lines → ∃ l ∈ lines, stem l = stem r.path) ∧
        (d.bag = true ∨ d.onDisk r.path = true) ∧ r.alt ≠ .none) := by
  have hnn : ∀ r : NavRow K, r.alt.notNone = true ↔ r.alt ≠ .none := by
    intro r; cases r.alt <;> simp [AltCell.notNone]
  have hli : ∀ r, listed stem d r = true ↔ ∀ lines, d.userList = some lines → ∃ l ∈ lines, stem l = stem r.path := by
    intro r
    unfold listed
    cases hu : d.userList with
    | none => simp
    | some lines => simp [List.mem_map]
  have hl : listedRows stem d = .error .quit ∧ d.rows.filter (listed stem d) = [] ∨
      listedRows stem d = .ok (d.rows.filter (listed stem d)) := by
    cases hr : listedRows stem d with
    | ok rows => right; rw [listedRows_eq stem d rows hr]
    | error e =>
      left
      unfold listedRows at hr
      cases hu : d.userList with
      | none => rw [hu] at hr; simp at hr
      | some lines =>
        rw [hu] at hr
        simp only [] at hr
        split_ifs at hr with he
        refine ⟨by simpa using hr.symm, ?_⟩
        rw [List.isEmpty_iff, (C57_trim stem lines d.rows).2.2] at he
        rw [← he]
        apply List.filter_congr
        intro r _
        simp [listed, hu]
  have main : selectImages stem d = .error .quit ∧
        (((d.rows.filter (listed stem d)).filter fun r => d.bag || d.onDisk r.path).filter (·.alt.notNone)) = [] ∨
      (∃ sel, selectImages stem d = .ok sel) ∧
        (((d.rows.filter (listed stem d)).filter fun r => d.bag || d.onDisk r.path).filter (·.alt.notNone)) ≠ [] := by
    unfold selectImages
    by_cases h0 : d.rows.isEmpty = true
    · rw [if_pos h0]
      left
      rw [List.isEmpty_iff] at h0
      simp [h0]
    · rw [if_neg h0]
      rcases hl with ⟨e1, e2⟩ | e1
      · left; rw [e1]; exact ⟨rfl, by rw [e2]; rfl⟩
      · rw [e1]
        simp only [bind, Except.bind, existingRows]
        by_cases hx : ((d.rows.filter (listed stem d)).filter fun r => d.bag || d.onDisk r.path).isEmpty = true
        · rw [if_pos hx]
          left
          rw [List.isEmpty_iff] at hx
          rw [hx]; exact ⟨rfl, rfl⟩
        · rw [if_neg hx]
          simp only []
          by_cases hy : (((d.rows.filter (listed stem d)).filter fun r => d.bag || d.onDisk r.path).filter
              (·.alt.notNone)).isEmpty = true
          · rw [if_pos hy]
            left
            exact ⟨rfl, List.isEmpty_iff.1 hy⟩
          · rw [if_neg hy]
            right
            exact ⟨⟨_, rfl⟩, fun h => hy (List.isEmpty_iff.2 h)⟩
  have hne : (((d.rows.filter (listed stem d)).filter fun r => d.bag || d.onDisk r.path).filter (·.alt.notNone)) = [] ↔
      ¬ ∃ r ∈ d.rows, (∀ lines, d.userList = some lines → ∃ l ∈ lines, stem l = stem r.path) ∧
        (d.bag = true ∨ d.onDisk r.path = true) ∧ r.alt ≠ .none := by
    simp only [List.filter_eq_nil_iff, List.mem_filter, Bool.or_eq_true, hnn, hli]
    constructor
    · rintro h ⟨r, a, b, c, e⟩; exact h r ⟨⟨a, b⟩, c⟩ e
    · rintro h r ⟨⟨a, b⟩, c⟩ e; exact h ⟨r, a, b, c, e⟩
  rcases main with ⟨m1, m2⟩ | ⟨⟨sel, m1⟩, m2⟩
  · exact ⟨.inl m1, fun _ => hne.1 m2, fun _ => m1⟩
  · refine ⟨.inr ⟨sel, m1⟩, fun h => ?_, fun h => absurd (hne.2 h) m2⟩
    rw [m1] at h; cases h

/-- C78: with colour correction only images on the user's list are corrected. -/
theorem C78_listed_partial (stem : String → String) (d : ImgDive K) (lines : List String) (sel : ImgSel K)
    (hu : d.userList = some lines) (hb : d.bag = false) (h : processImages stem true d = .ok sel) :
    ∀ p, ImgRef.file p ∈ sel.images → ∃ l ∈ lines, stem l = stem p := by
  intro p hp
  have hs : selectImages stem d = .ok sel := by simpa [processImages] using h
  obtain ⟨hl, ha, -⟩ := C52_aligned stem d sel hs
  obtain ⟨i, hi⟩ := List.getElem?_of_mem hp
  have hlt : i < sel.alts.length := by
    rw [← hl]; exact (List.getElem?_eq_some_iff.1 hi).1
  obtain ⟨r, -, hus, hr⟩ := ha i _ _ hi (List.getElem?_eq_getElem hlt)
  have : p = r.path := by simpa [refOf, hb] using hr
  rw [this]
  exact hus.1 lines hu

end Select

private def demo (path : String) (alts : List ℚ) : ImgDive ℚ :=
  ⟨false, alts.map fun a => ⟨path, .val a, 0⟩, none, fun _ => true, 1, 10, [path]⟩

example : selectImages id (⟨false, [⟨"a", .val 5, 0⟩, ⟨"b", .none, 0⟩, ⟨"c", .val 1, 0⟩, ⟨"d", .val 2, 0⟩], none,
    fun p => p ≠ "x", 1, 10, []⟩ : ImgDive ℚ) = .ok ⟨[.file "a", .file "d"], [5, 2]⟩ := by
  simp [selectImages, listedRows, existingRows, AltCell.notNone, bind, Except.bind, selectRow]
  norm_num

/-- C78 fails with manual balance: the user's list is not read. -/
theorem C78_manual_false : ∃ (d : ImgDive ℚ) (sel : ImgSel ℚ), d.userList = some ["a"] ∧ d.bag = false ∧
    processImages id false d = .ok sel ∧ ImgRef.file "b" ∈ sel.images :=
  ⟨⟨false, [], some ["a"], fun _ => true, 0, 10, ["a", "b"]⟩, ⟨[.file "a", .file "b"], []⟩, rfl, rfl, rfl, by simp⟩

/-! ## C53 -/

private theorem loop_last {K : Type} [LinearOrder K] (stem : String → String) (ds : List (ImgDive K)) (d : ImgDive K)
    (s r : ImgSel K) (h : diveLoop stem s (ds ++ [d]) = .ok r) : selectImages stem d = .ok r := by
  induction ds generalizing s with
  | nil =>
    simp only [List.nil_append, diveLoop, nextDive, bind, Except.bind] at h
    cases hs : selectImages stem d with
    | error e => rw [hs] at h; simp at h
    | ok x => rw [hs] at h; simpa using h
  | cons e ds ih =>
    simp only [List.cons_append, diveLoop, nextDive, bind, Except.bind] at h
    cases hs : selectImages stem e with
    | error e => rw [hs] at h; simp at h
    | ok x => rw [hs] at h; exact ih x h

/-- C53 fails for every list of dives: only the images of the last dive are used. -/
theorem C53_last_dive_only_false {K : Type} [LinearOrder K] (stem : String → String) (before : List (ImgDive K))
    (d : ImgDive K) (sel : ImgSel K) (h : parseImages stem (before ++ [d]) = .ok sel) :
    selectImages stem d = .ok sel := by
  unfold parseImages at h
  cases hl : diveLoop stem ⟨[], []⟩ (before ++ [d]) with
  | error e => rw [hl] at h; simp [bind, Except.bind] at h
  | ok x =>
    rw [hl] at h
    simp only [bind, Except.bind] at h
    split_ifs at h
    simp only [Except.ok.injEq] at h
    rw [← h]
    exact loop_last stem before d _ x hl

/-- C53 fails: two dives with three images each give three images, all of the second dive. -/
theorem C53_two_dives_false :
    parseImages id [demo "a" [2, 3, 4], demo "b" [5, 6, 7]] = .ok ⟨[.file "b", .file "b", .file "b"], [5, 6, 7]⟩ := by
  simp [parseImages, diveLoop, nextDive, demo, selectImages, listedRows, existingRows, AltCell.notNone, bind,
    Except.bind, selectRow]
  norm_num

/-- C53 fails: if the last dive has too few images the run is given up although the first has enough. -/
theorem C53_given_up_false :
    parseImages id [demo "a" [2, 3, 4], demo "b" [5]] = .error .quit ∧
    parseImages id [demo "a" [2, 3, 4]] = .ok ⟨[.file "a", .file "a", .file "a"], [2, 3, 4]⟩ := by
  constructor
  · simp [parseImages, diveLoop, nextDive, demo, selectImages, listedRows, existingRows, AltCell.notNone, bind,
      Except.bind, selectRow]
    norm_num
  · simp [parseImages, diveLoop, nextDive, demo, selectImages, listedRows, existingRows, AltCell.notNone, bind,
      Except.bind, selectRow]
    norm_num

/-- C53 for a single dive: all its usable images are used, and the run is given up for fewer than three. -/
theorem C53_single_dive_partial {K : Type} [LinearOrder K] (stem : String → String) (d : ImgDive K) (sel : ImgSel K) :
    parseImages stem [d] = .ok sel ↔ selectImages stem d = .ok sel ∧ 3 ≤ sel.alts.length := by
  unfold parseImages diveLoop nextDive diveLoop
  cases hs : selectImages stem d with
  | error e => simp [bind, Except.bind]
  | ok x =>
    simp only [bind, Except.bind]
    split_ifs with h
    · constructor
      · intro h'; cases h'
      · rintro ⟨h', h''⟩; simp only [Except.ok.injEq] at h'; subst h'; omega
    · simp only [Except.ok.injEq]
      constructor
      · rintro rfl; exact ⟨rfl, by omega⟩
      · exact fun h' => h'.1

/-! ## C54 -/

section Depth
variable {I P : Type}

private theorem scan_spec (mapOf : I → P) (found : P → Bool) (images : List I) (k : ℕ) :
    (depthScan mapOf found k images).1 = (images.filter fun i => found (mapOf i)).map mapOf ∧
    (∀ j ∈ (depthScan mapOf found k images).2, k ≤ j) ∧
    (depthScan mapOf found k images).2.length = (images.filter fun i => !found (mapOf i)).length := by
  induction images generalizing k with
  | nil => simp [depthScan]
  | cons im ims ih =>
    obtain ⟨h1, h2, h3⟩ := ih (k + 1)
    unfold depthScan
    simp only []
    by_cases hf : found (mapOf im) = true
    · rw [if_pos hf]
      refine ⟨by simp [hf, h1], fun j hj => by have := h2 j hj; omega, by simp [hf, h3]⟩
    · rw [if_neg hf]
      refine ⟨by simp [hf, h1], ?_, by simp [hf, h3]⟩
      intro j hj
      rcases List.mem_cons.1 hj with rfl | hj
      · exact le_rfl
      · have := h2 j hj; omega

private theorem fold_cons (a : I) (idxs : List ℕ) (l : List I) :
    (idxs.map (· + 1)).foldl (fun l k => l.eraseIdx k) (a :: l) = a :: idxs.foldl (fun l k => l.eraseIdx k) l := by
  induction idxs generalizing l with
  | nil => rfl
  | cons i idxs ih => simp only [List.map_cons, List.foldl_cons, List.eraseIdx_cons_succ]; exact ih _

private theorem scan_shift (mapOf : I → P) (found : P → Bool) (images : List I) (k : ℕ) :
    (depthScan mapOf found (k + 1) images).2 = (depthScan mapOf found k images).2.map (· + 1) := by
  induction images generalizing k with
  | nil => rfl
  | cons im ims ih =>
    unfold depthScan
    simp only []
    split_ifs
    · exact ih (k + 1)
    · simp only [List.map_cons]; rw [ih (k + 1)]

private theorem drop_spec (mapOf : I → P) (found : P → Bool) (images : List I) :
    dropAll images (depthScan mapOf found 0 images).2 = images.filter fun i => found (mapOf i) := by
  induction images with
  | nil => rfl
  | cons im ims ih =>
    unfold depthScan
    simp only []
    rw [scan_shift]
    unfold dropAll at ih ⊢
    split_ifs with hf
    · rw [← List.map_reverse, fold_cons, ih]; simp [hf]
    · simp only []
      rw [List.reverse_cons, List.foldl_append, ← List.map_reverse, fold_cons, ih]
      simp [hf]

/-- C54: the images left are exactly those whose depth map exists, in order, and the i-th depth map is that of the
i-th image; the run is given up exactly if there are images but no depth map. -/
theorem C54_paired (mapOf : I → P) (found : P → Bool) (images : List I) :
    (depthMaps mapOf found images = .error .quit ∧ images ≠ [] ∧ ∀ i ∈ images, found (mapOf i) = false) ∨
    ((images = [] ∨ ∃ i ∈ images, found (mapOf i) = true) ∧
      depthMaps mapOf found images = .ok (images.filter fun i => found (mapOf i),
        (images.filter fun i => found (mapOf i)).map mapOf)) := by
  obtain ⟨h1, -, h3⟩ := scan_spec mapOf found images 0
  have hd := drop_spec mapOf found images
  unfold depthMaps
  generalize hs : depthScan mapOf found 0 images = p at *
  obtain ⟨maps, drop⟩ := p
  simp only [] at h1 h3 hd ⊢
  by_cases hq : 0 < drop.length ∧ drop.length = images.length
  · left
    rw [if_pos hq]
    refine ⟨rfl, by rintro rfl; have h0 := hq.1; rw [hq.2] at h0; exact absurd h0 (by simp), ?_⟩
    have he : (images.filter fun i => !found (mapOf i)).length = images.length := by rw [← h3]; exact hq.2
    have := List.length_filter_eq_length_iff.1 he
    intro i hi
    simpa using this i hi
  · right
    rw [if_neg hq, hd, h1, if_pos (by simp)]
    refine ⟨?_, rfl⟩
    by_cases hi : images = []
    · exact .inl hi
    · right
      by_contra hc
      push Not at hc
      apply hq
      have he : (images.filter fun i => !found (mapOf i)).length = images.length := by
        rw [List.length_filter_eq_length_iff]
        intro a ha
        simpa using hc a ha
      rw [h3, he]
      exact ⟨List.length_pos_iff.2 hi, rfl⟩

example : depthMaps (fun n : ℕ => n * 10) (fun n => n ≠ 20) [1, 2, 3] = .ok ([1, 3], [10, 30]) := rfl

end Depth

/-! ## C55 -/

section Guard
variable {C : Type}

private theorem lookup_none_of_names (fs : CorrFs C) (folder : String) (name : List Char)
    (h : name ∉ fs.names folder) : fs.content folder name = none := by
  unfold CorrFs.content
  rw [List.lookup_eq_none_iff]
  intro p hp
  simp only [bne_iff_ne, ne_eq]
  rintro he
  apply h
  unfold CorrFs.names
  rw [List.mem_map]
  refine ⟨p, List.mem_filter.2 ⟨hp, ?_⟩, ?_⟩
  · rw [← he]; simp
  · rw [← he]

private theorem write_other (fs : CorrFs C) (folder folder' : String) (files : List (List Char × C))
    (name : List Char) (h : folder' ≠ folder) : (fs.writeAll folder files).content folder' name = fs.content folder' name := by
  unfold CorrFs.writeAll
  induction files generalizing fs with
  | nil => rfl
  | cons f files ih =>
    rw [List.foldl_cons, ih]
    unfold CorrFs.content
    rw [List.lookup_cons]
    have : ((folder', name) == (folder, f.1)) = false := by
      rw [beq_eq_false_iff_ne]
      intro he
      exact h (Prod.ext_iff.1 he).1
    rw [this]

private theorem guard_free (parse : Bool) (fs : CorrFs C) (folder : String)
    (h : correctGuard parse false fs folder = .ok ()) (name : List Char)
    (hn : (if parse then isNpy name else hasDot name) = true) : fs.content folder name = none := by
  apply lookup_none_of_names
  intro hm
  have key : ∀ p : List Char → Bool, p name = true → 0 < ((fs.names folder).filter p).length := fun p hp =>
    List.length_pos_iff.2 fun he => (List.filter_eq_nil_iff.1 he) name hm hp
  unfold correctGuard at h
  simp only [] at h
  cases parse with
  | true =>
    simp only [if_true] at h hn
    rw [if_pos ⟨key _ hn, trivial⟩] at h
    cases h
  | false =>
    simp only [Bool.false_eq_true, if_false] at h hn
    rw [if_pos ⟨key _ hn, trivial⟩] at h
    cases h

private theorem guardAll_free (fs : CorrFs C) (folders : List String) (h : guardAll false fs folders = .ok ())
    (folder : String) (hf : folder ∈ folders) : correctGuard true false fs folder = .ok () := by
  induction folders with
  | nil => simp at hf
  | cons f rest ih =>
    unfold guardAll at h
    cases hg : correctGuard true false fs f with
    | error e => rw [hg] at h; simp [bind, Except.bind] at h
    | ok u =>
      rw [hg] at h
      simp only [bind, Except.bind] at h
      rcases List.mem_cons.1 hf with rfl | hf
      · exact hg
      · exact ih h hf

private theorem fold_write_other (fs : CorrFs C) (others : List String) (folder : String)
    (files : List (List Char × C)) (name : List Char) (h : folder ∉ others) :
    (others.foldl (fun fs o => fs.writeAll o files) fs).content folder name = fs.content folder name := by
  induction others generalizing fs with
  | nil => rfl
  | cons o others ih =>
    rw [List.foldl_cons, ih _ (fun hm => h (by simp [hm])), write_other _ _ _ _ _ (fun he => h (by simp [he]))]

/-- C55 (parse): without the force flag, whatever is written and however the run ends, every existing parameter file
(.npy), of every dive, still has its content. -/
theorem C55_parameters (fs : CorrFs C) (others : List String) (last : String) (files copied : List (List Char × C))
    (folder : String) (name : List Char) (c : C) (hn : isNpy name = true) (hc : fs.content folder name = some c) :
    (parseRun false fs others last files copied).1.content folder name = some c := by
  unfold parseRun
  cases hg : guardAll false fs (others ++ [last]) with
  | error e => exact hc
  | ok u =>
    simp only []
    have free : ∀ f ∈ others ++ [last], fs.content f name = none := fun f hf =>
      guard_free true fs f (guardAll_free fs _ hg f hf) name (by simpa using hn)
    have h1 : folder ∉ others := by
      intro hm; rw [free folder (by simp [hm])] at hc; simp at hc
    have h2 : folder ≠ last := by
      rintro rfl; rw [free folder (by simp)] at hc; simp at hc
    rw [fold_write_other _ _ _ _ _ h1, write_other _ _ _ _ _ h2, hc]

/-- C55 (process): without the force flag every existing corrected image (any file with an extension) still has its
content. -/
theorem C55_images (fs : CorrFs C) (out : String) (files : List (List Char × C)) (folder : String)
    (name : List Char) (c : C) (hn : hasDot name = true) (hc : fs.content folder name = some c) :
    (processRun false fs out files).1.content folder name = some c := by
  unfold processRun
  cases hg : correctGuard false false fs out with
  | error e => exact hc
  | ok u =>
    simp only []
    have h2 : folder ≠ out := by
      rintro rfl; rw [guard_free false fs folder hg name (by simpa using hn)] at hc; simp at hc
    rw [write_other _ _ _ _ _ h2, hc]

/-- C55: in a folder without such files the run is not refused, and with the force flag it never is. -/
theorem C55_runs (fs : CorrFs C) (out : String) (files : List (List Char × C)) (force : Bool)
    (h : force = true ∨ ∀ name ∈ fs.names out, hasDot name = false) :
    processRun force fs out files = (fs.writeAll out files, .ok ()) := by
  unfold processRun
  have : correctGuard false force fs out = .ok () := by
    unfold correctGuard
    simp only []
    rw [if_neg]
    rintro ⟨h1, h2⟩
    rcases h with h | h
    · rw [h] at h2; cases h2
    · obtain ⟨x, hx⟩ := List.exists_mem_of_ne_nil _ (List.length_pos_iff.1 h1)
      rw [List.mem_filter] at hx
      have hf := h x hx.1
      have hx2 := hx.2
      simp only [Bool.false_eq_true, if_false] at hx2
      rw [hf] at hx2; cases hx2
  rw [this]

example : (processRun false [(("out", "a.png".toList), 1)] "out" [("a.png".toList, 2)]).2 = .error .quit := rfl
example : (processRun true [(("out", "a.png".toList), 1)] "out" [("a.png".toList, 2)]).1.content "out" "a.png".toList
    = some 2 := rfl

end Guard

/-! ## C56 -/

section Bins
variable {K : Type} [Field K] [LinearOrder K] [IsStrictOrderedRing K] [FloorSemiring K]

omit [IsStrictOrderedRing K] [FloorSemiring K] in
private theorem count_edges (n : ℕ) (lo x : K) :
    (((List.range n).map fun (k : ℕ) => lo + (k : K) * (1 / 10)).filter fun e => e ≤ x).length =
      ((List.range n).filter fun (k : ℕ) => decide (lo + (k : K) * (1 / 10) ≤ x)).length := by
  rw [List.filter_map, List.length_map]
  rfl

private theorem count_prefix (n : ℕ) (p : ℕ → Bool) (hp : ∀ j k, j ≤ k → p k = true → p j = true) (m : ℕ) :
    ((List.range n).filter p).length = m ↔
      m ≤ n ∧ (∀ k, k < m → p k = true) ∧ (m < n → p m = false) := by
  induction n generalizing m with
  | zero => simp; constructor
            · rintro rfl; simp
            · rintro ⟨h, -⟩; omega
  | succ n ih =>
    rw [List.range_succ, List.filter_append, List.length_append]
    by_cases hn : p n = true
    · have hall : ((List.range n).filter p).length = n :=
        (ih n).2 ⟨le_rfl, fun k hk => hp k n hk.le hn, fun h => absurd h (lt_irrefl _)⟩
      simp only [List.filter_cons, hn, if_true, List.filter_nil, List.length_singleton, hall]
      constructor
      · rintro rfl
        exact ⟨le_rfl, fun k hk => hp k n (by omega) hn, fun h => absurd h (lt_irrefl _)⟩
      · rintro ⟨h1, h2, h3⟩
        by_contra hne
        have hlt : m < n + 1 := by omega
        have := h3 hlt
        have h4 := hp m n (by omega) hn
        rw [this] at h4; cases h4
    · have hn' : p n = false := by simpa using hn
      simp only [List.filter_cons, hn', Bool.false_eq_true, if_false, List.filter_nil, List.length_nil, add_zero]
      rw [ih m]
      constructor
      · rintro ⟨h1, h2, h3⟩
        refine ⟨by omega, h2, fun h => ?_⟩
        rcases Nat.lt_or_ge m n with h' | h'
        · exact h3 h'
        · rw [show m = n by omega]; exact hn'
      · rintro ⟨h1, h2, h3⟩
        have : m ≤ n := by
          by_contra hc
          have := h2 n (by omega)
          rw [hn'] at this; cases this
        exact ⟨this, h2, fun h => h3 (by omega)⟩

/-- C56: an image is in bin `k` exactly if its altitude is at least the k-th edge and below the next one. So it is in
at most one bin, whatever the other images are. -/
theorem C56_bin (altMin altMax : K) (alts : List K) (i k : ℕ) (a : K) (hi : alts[i]? = some a)
    (hk : k + 1 < edgeCount altMin altMax) :
    i ∈ inBin (histBins altMin altMax) alts k ↔
      altMin + (k : K) * (1 / 10) ≤ a ∧ a < altMin + ((k : K) + 1) * (1 / 10) := by
  have hil : i < alts.length := (List.getElem?_eq_some_iff.1 hi).1
  unfold inBin
  rw [List.mem_filter, List.mem_range]
  simp only [hi, Option.map_some, Option.some.injEq, decide_eq_true_eq, hil, true_and]
  unfold binOf digitize histBins
  rw [count_edges]
  have hmono : ∀ j l : ℕ, j ≤ l → decide (altMin + (l : K) * (1 / 10) ≤ a) = true →
      decide (altMin + (j : K) * (1 / 10) ≤ a) = true := by
    intro j l hjl h
    rw [decide_eq_true_eq] at h ⊢
    have : (j : K) ≤ (l : K) := by exact_mod_cast hjl
    have h10 : (0 : K) < 1 / 10 := by positivity
    nlinarith
  have key := count_prefix (edgeCount altMin altMax) (fun j : ℕ => decide (altMin + (j : K) * (1 / 10) ≤ a)) hmono (k + 1)
  have e : (((List.filter (fun k : ℕ => decide (altMin + (k : K) * (1 / 10) ≤ a))
      (List.range (edgeCount altMin altMax))).length : ℤ) - 1 = (k : ℤ)) ↔
      ((List.filter (fun k : ℕ => decide (altMin + (k : K) * (1 / 10) ≤ a))
      (List.range (edgeCount altMin altMax))).length = k + 1) := by omega
  rw [e, key]
  constructor
  · rintro ⟨-, h2, h3⟩
    have a1 := h2 k (by omega)
    have a2 := h3 hk
    simp only [decide_eq_true_eq, decide_eq_false_iff_not, not_le] at a1 a2
    refine ⟨a1, ?_⟩
    push_cast at a2
    exact a2
  · rintro ⟨h1, h2⟩
    refine ⟨hk.le, fun j hj => hmono j k (by omega) (by simpa using h1), fun _ => ?_⟩
    simp only [decide_eq_false_iff_not, not_le]
    push_cast
    exact h2

omit [IsStrictOrderedRing K] in
/-- C56: no image is in two bins. -/
theorem C56_one_bin (altMin altMax : K) (alts : List K) (i k l : ℕ)
    (hk : i ∈ inBin (histBins altMin altMax) alts k) (hl : i ∈ inBin (histBins altMin altMax) alts l) : k = l := by
  unfold inBin at hk hl
  rw [List.mem_filter] at hk hl
  have h1 := of_decide_eq_true hk.2
  have h2 := of_decide_eq_true hl.2
  rw [h1] at h2
  simpa using h2

/-- C56: if the altitude range is a whole number `n` of decimetres there are `n` bins and every selected image is in
one of them. -/
theorem C56_covered (altMin altMax : K) (n : ℕ) (hn : altMax = altMin + (n : K) * (1 / 10)) (alts : List K) (i : ℕ)
    (a : K) (hi : alts[i]? = some a) (h1 : altMin < a) (h2 : a < altMax) :
    edgeCount altMin altMax = n + 1 ∧ ∃ k < n, i ∈ inBin (histBins altMin altMax) alts k := by
  have he : edgeCount altMin altMax = n + 1 := by
    unfold edgeCount
    have : (altMax + 1 / 20 - altMin) / (1 / 10) = (n : K) + 1 / 2 := by rw [hn]; field_simp; ring
    rw [this, Nat.ceil_eq_iff (by omega)]
    push_cast
    constructor <;> linarith
  refine ⟨he, ?_⟩
  have hpos : 0 ≤ (a - altMin) * 10 := by linarith
  have hf := Nat.floor_le hpos
  have hg := Nat.lt_floor_add_one ((a - altMin) * 10)
  have hlt : ⌊(a - altMin) * 10⌋₊ < n := by
    rw [Nat.floor_lt hpos]
    rw [hn] at h2
    linarith
  refine ⟨⌊(a - altMin) * 10⌋₊, hlt, ?_⟩
  rw [C56_bin altMin altMax alts i _ a hi (by omega)]
  constructor <;> linarith

/-- C56: if it is not, images close to the upper limit can be in no bin: with limits 1 m and 1.14 m an image at
1.12 m is selected but never used. -/
theorem C56_left_over : ∀ k, k + 1 < edgeCount (1 : ℚ) 1.14 → 0 ∉ inBin (histBins (1 : ℚ) 1.14) [1.12] k := by
  intro k hk
  have he : edgeCount (1 : ℚ) 1.14 = 2 := by
    unfold edgeCount
    rw [Nat.ceil_eq_iff (by norm_num)]
    norm_num
  rw [C56_bin 1 1.14 [1.12] 0 k 1.12 rfl hk]
  have : k = 0 := by omega
  subst this
  norm_num

example : 0 ∈ inBin (histBins (1 : ℚ) 2) [1.35] 3 := by
  have he : edgeCount (1 : ℚ) 2 = 11 := by
    unfold edgeCount
    rw [Nat.ceil_eq_iff (by norm_num)]
    norm_num
  rw [C56_bin 1 2 [1.35] 0 3 1.35 rfl (by omega)]
  norm_num

end Bins

private def imageWrites {R : Type} (k : ℕ) (l : List (BinWrite R)) : List R :=
  l.filterMap fun w => match w with
    | .image j r => if j = k then some r else none
    | .distance _ _ => none

private def distanceWrites {R : Type} (k : ℕ) (l : List (BinWrite R)) : List R :=
  l.filterMap fun w => match w with
    | .image _ _ => none
    | .distance j r => if j = k then some r else none

private theorem fold_images {R : Type} (m : BinMaps R) (l : List (BinWrite R)) (k : ℕ) :
    (l.foldl BinMaps.write m).images k = ((imageWrites k l).getLast?).getD (m.images k) ∧
    (l.foldl BinMaps.write m).distances k = ((distanceWrites k l).getLast?).getD (m.distances k) := by
  induction l generalizing m with
  | nil => simp [imageWrites, distanceWrites]
  | cons w l ih =>
    obtain ⟨i1, i2⟩ := ih (m.write w)
    rw [List.foldl_cons, i1, i2]
    cases w with
    | image j r =>
      by_cases hj : j = k
      · subst hj
        simp only [imageWrites, distanceWrites, List.filterMap_cons, if_true, BinMaps.write]
        constructor
        · rw [List.getLast?_cons]; simp
        · trivial
      · have hj' : ¬ k = j := fun h => hj h.symm
        simp [imageWrites, distanceWrites, BinMaps.write, hj, hj']
    | distance j r =>
      by_cases hj : j = k
      · subst hj
        simp only [imageWrites, distanceWrites, List.filterMap_cons, if_true, BinMaps.write]
        constructor
        · trivial
        · rw [List.getLast?_cons]; simp
      · have hj' : ¬ k = j := fun h => hj h.symm
        simp [imageWrites, distanceWrites, BinMaps.write, hj, hj']

private theorem writes_of_bin {R : Type} (imageOf distanceOf : ℕ → R) (members : ℕ → List ℕ) (n k : ℕ) :
    imageWrites k (binWrites imageOf distanceOf members n) =
      (if k < n ∧ 10 ≤ (members k).length then [imageOf k] else []) ∧
    distanceWrites k (binWrites imageOf distanceOf members n) =
      (if k < n ∧ 10 ≤ (members k).length then [distanceOf k] else []) := by
  induction n with
  | zero => simp [binWrites, imageWrites, distanceWrites]
  | succ n ih =>
    have hsplit : binWrites imageOf distanceOf members (n + 1) =
        binWrites imageOf distanceOf members n ++ binTask imageOf distanceOf members n := by
      unfold binWrites; rw [List.range_succ, List.flatMap_append]; simp
    rw [hsplit]
    unfold imageWrites distanceWrites at ih ⊢
    rw [List.filterMap_append, List.filterMap_append, ih.1, ih.2]
    unfold binTask
    by_cases hm : 10 ≤ (members n).length
    · rw [if_pos hm]
      by_cases hkn : n = k
      · subst hkn; simp [hm]
      · have : (k < n + 1) ↔ (k < n) := by omega
        simp [hkn, this]
    · rw [if_neg hm]
      by_cases hkn : n = k
      · subst hkn; simp [hm]
      · have : (k < n + 1) ↔ (k < n) := by omega
        simp [this]

/-- C56: whatever the order in which the writes of the parallel tasks happen, row `k` of the tables holds the average
of bin `k` if that bin has ten images or more, and its initial value otherwise. -/
theorem C56_schedule {R : Type} (imageOf distanceOf : ℕ → R) (members : ℕ → List ℕ) (n : ℕ) (m : BinMaps R)
    (schedule : List (BinWrite R)) (h : schedule.Perm (binWrites imageOf distanceOf members n)) (k : ℕ) :
    (schedule.foldl BinMaps.write m).images k =
      (if k < n ∧ 10 ≤ (members k).length then imageOf k else m.images k) ∧
    (schedule.foldl BinMaps.write m).distances k =
      (if k < n ∧ 10 ≤ (members k).length then distanceOf k else m.distances k) := by
  obtain ⟨f1, f2⟩ := fold_images m schedule k
  obtain ⟨w1, w2⟩ := writes_of_bin imageOf distanceOf members n k
  have p1 : imageWrites k schedule = if k < n ∧ 10 ≤ (members k).length then [imageOf k] else [] := by
    have := h.filterMap (fun w => match w with
      | .image j r => if j = k then some r else none
      | .distance _ _ => none)
    have this : (imageWrites k schedule).Perm (imageWrites k (binWrites imageOf distanceOf members n)) := this
    rw [w1] at this
    split_ifs at this ⊢
    · exact List.perm_singleton.1 this
    · exact List.perm_nil.1 this
  have p2 : distanceWrites k schedule = if k < n ∧ 10 ≤ (members k).length then [distanceOf k] else [] := by
    have := h.filterMap (fun w => match w with
      | .image _ _ => none
      | .distance j r => if j = k then some r else none)
    have this : (distanceWrites k schedule).Perm (distanceWrites k (binWrites imageOf distanceOf members n)) := this
    rw [w2] at this
    split_ifs at this ⊢
    · exact List.perm_singleton.1 this
    · exact List.perm_nil.1 this
  rw [f1, f2, p1, p2]
  split_ifs <;> simp

example : (([.distance 1 5, .image 1 4] : List (BinWrite ℕ)).foldl BinMaps.write ⟨fun _ => 0, fun _ => 0⟩).images 1
    = 4 := rfl

/-! ## C63 -/

private theorem loop_bound (attempt : ℕ → WriteTry) (fuel writes i n j : ℕ)
    (h : writeLoop attempt fuel writes i = .ok (n, j)) :
    n ≤ writes + fuel ∧
    ((j = i + fuel ∧ n = writes + fuel ∧ ∀ k, writes ≤ k → k < n → attempt k = .readRaises) ∨
      (writes < n ∧ n = writes + (j - i) + 1 ∧ i ≤ j ∧ j < i + fuel ∧ attempt (n - 1) = .good ∧
        ∀ k, writes ≤ k → k < n - 1 → attempt k = .readRaises)) := by
  induction fuel generalizing writes i with
  | zero =>
    simp only [writeLoop, Except.ok.injEq, Prod.mk.injEq] at h
    obtain ⟨rfl, rfl⟩ := h
    exact ⟨by omega, .inl ⟨by omega, by omega, fun k h1 h2 => by omega⟩⟩
  | succ fuel ih =>
    unfold writeLoop at h
    cases ha : attempt writes with
    | writeRaises => rw [ha] at h; simp at h
    | good =>
      rw [ha] at h
      simp only [Except.ok.injEq, Prod.mk.injEq] at h
      obtain ⟨rfl, rfl⟩ := h
      refine ⟨by omega, .inr ⟨by omega, by omega, le_rfl, by omega, by simpa using ha, fun k h1 h2 => by omega⟩⟩
    | readRaises =>
      rw [ha] at h
      simp only [] at h
      obtain ⟨h1, h2⟩ := ih _ _ h
      refine ⟨by omega, ?_⟩
      rcases h2 with ⟨a, b, c⟩ | ⟨a, b, c, d, e, f⟩
      · refine .inl ⟨by omega, by omega, fun k hk1 hk2 => ?_⟩
        rcases Nat.lt_or_ge writes k with h | h
        · exact c k (by omega) hk2
        · rw [show k = writes by omega]; exact ha
      · refine .inr ⟨by omega, by omega, by omega, by omega, e, fun k hk1 hk2 => ?_⟩
        rcases Nat.lt_or_ge writes k with h | h
        · exact f k (by omega) hk2
        · rw [show k = writes by omega]; exact ha

/-- C63, when it returns: at most five writes; either the first one could be read back and nothing is reported, or
all five could not be read back and the failure is reported. -/
theorem C63_returns_partial (attempt : ℕ → WriteTry) (n : ℕ) (e : WriteEnd) (h : writeOutput attempt = .ok (n, e)) :
    (n = 1 ∧ e = .silent ∧ attempt 0 = .good) ∨
    (n = 5 ∧ e = .reportedFailure ∧ ∀ k < 5, attempt k = .readRaises) := by
  unfold writeOutput at h
  cases hl : writeLoop attempt 5 0 0 with
  | error e => rw [hl] at h; simp [bind, Except.bind] at h
  | ok p =>
    obtain ⟨w, i⟩ := p
    rw [hl] at h
    simp only [bind, Except.bind] at h
    obtain ⟨h1, h2⟩ := loop_bound attempt 5 0 0 w i hl
    split_ifs at h with c1 c2
    · simp only [Except.ok.injEq, Prod.mk.injEq] at h
      obtain ⟨rfl, rfl⟩ := h
      rcases h2 with ⟨a, b, c⟩ | ⟨a, b, c, d, e, f⟩
      · exact .inr ⟨by omega, rfl, fun k hk => c k (by omega) (by omega)⟩
      · omega
    · simp only [Except.ok.injEq, Prod.mk.injEq] at h
      obtain ⟨rfl, rfl⟩ := h
      rcases h2 with ⟨a, b, c⟩ | ⟨a, b, c, d, e, f⟩
      · omega
      · have : w = 1 := by omega
        subst this
        exact .inl ⟨rfl, rfl, e⟩

/-- C63 fails: whenever a write succeeds after one to four failed ones, AttributeError is raised. -/
theorem C63_retry_false (attempt : ℕ → WriteTry) (k : ℕ) (h0 : 0 < k) (h4 : k < 5)
    (hf : ∀ j < k, attempt j = .readRaises) (hg : attempt k = .good) :
    writeOutput attempt = .error .attributeError := by
  have : k = 1 ∨ k = 2 ∨ k = 3 ∨ k = 4 := by omega
  rcases this with rfl | rfl | rfl | rfl
  · simp [writeOutput, writeLoop, hf 0, hg, bind, Except.bind]
  · simp [writeOutput, writeLoop, hf 0, hf 1, hg, bind, Except.bind]
  · simp [writeOutput, writeLoop, hf 0, hf 1, hf 2, hg, bind, Except.bind]
  · simp [writeOutput, writeLoop, hf 0, hf 1, hf 2, hf 3, hg, bind, Except.bind]

example : writeOutput (fun _ => .good) = .ok (1, .silent) := rfl
example : writeOutput (fun _ => .readRaises) = .ok (5, .reportedFailure) := rfl

/-! ## C64 -/

/-- C64 fails for all settings: the attribute image correction asks for does not exist. -/
theorem C64_attribute_false (timezone timeoffset : ℚ) : correctOffset timezone timeoffset = .error .attributeError :=
  rfl

/-- C64: the offset navigation applies is the time zone in seconds plus the configured offset, plus the time zone in
hours times 60. -/
theorem C64_navigation_false (timezone timeoffset : ℚ) :
    ∃ o, navOffset timezone timeoffset = .ok o ∧ o = timezone * 3600 + timeoffset + timezone * 60 ∧
      (o = timezone * 3600 + timeoffset ↔ timezone = 0) := by
  refine ⟨_, rfl, by ring, ?_⟩
  constructor
  · intro h; linarith
  · rintro rfl; ring

/-! ## C77 -/

/-- C77: when every image was processed and names are distinct, the file list has exactly the rows of the navigation
table whose image was processed, in order, each with the output path of its own image. -/
theorem C77_file_list_partial {K : Type} (stem : String → String) (rows : List (NavRow K)) (paths : List String)
    (hn : (paths.map stem).Nodup) :
    ∃ out, correctedList stem (some rows) (paths.map some) = .ok out ∧
      (out.map Prod.fst).Sublist rows ∧
      (∀ r p, (r, p) ∈ out → r ∈ rows ∧ p ∈ paths ∧ stem p = stem r.path) ∧
      ∀ r ∈ rows, ∀ p ∈ paths, stem p = stem r.path → (r, p) ∈ out := by
  have hnames : (paths.map some).filterMap (·.map stem) = paths.map stem := by
    rw [List.filterMap_map]; simp
  have htable : (paths.map some).filterMap (·.map fun p => (stem p, p)) = paths.map fun p => (stem p, p) := by
    rw [List.filterMap_map]; simp
  unfold correctedList
  simp only [hnames, htable]
  rw [if_neg (by simp)]
  have hlook : ∀ s p, (paths.map fun p => (stem p, p)).lookup s = some p ↔ p ∈ paths ∧ stem p = s := by
    intro s p
    clear hnames htable
    induction paths with
    | nil => simp
    | cons q paths ih =>
      rw [List.map_cons, List.nodup_cons] at hn
      rw [List.map_cons, List.lookup_cons]
      by_cases hs : s = stem q
      · subst hs
        simp only [beq_self_eq_true, Option.some.injEq, List.mem_cons]
        constructor
        · rintro rfl; exact ⟨.inl rfl, rfl⟩
        · rintro ⟨rfl | hp, he⟩
          · rfl
          · exact absurd (List.mem_map.2 ⟨p, hp, he⟩) hn.1
      · rw [beq_eq_false_iff_ne.2 hs]
        simp only []
        rw [ih hn.2, List.mem_cons]
        constructor
        · rintro ⟨h1, h2⟩; exact ⟨.inr h1, h2⟩
        · rintro ⟨rfl | h1, h2⟩
          · exact absurd h2.symm hs
          · exact ⟨h1, h2⟩
  refine ⟨_, rfl, ?_, ?_, ?_⟩
  · generalize (paths.map fun p => (stem p, p)) = t
    clear hlook
    induction rows with
    | nil => simp
    | cons r rows ih =>
      rw [List.filterMap_cons]
      cases hl : t.lookup (stem r.path) with
      | none => exact ih.trans (List.sublist_cons_self _ _)
      | some p => exact ih.cons_cons _
  · intro r p h
    rw [List.mem_filterMap] at h
    obtain ⟨r', hr, hp⟩ := h
    simp only [Option.map_eq_some_iff, Prod.mk.injEq] at hp
    obtain ⟨q, hq, rfl, rfl⟩ := hp
    exact ⟨hr, ((hlook _ _).1 hq).1, ((hlook _ _).1 hq).2⟩
  · intro r hr p hp hs
    rw [List.mem_filterMap]
    exact ⟨r, hr, by rw [(hlook (stem r.path) p).2 ⟨hp, hs⟩]; rfl⟩

/-- C77 fails: with manual balance there is no navigation table and writing the list always fails. -/
theorem C77_manual_false {K : Type} (stem : String → String) (processed : List (Option String)) :
    correctedList (K := K) stem none processed = .error .valueError := by
  unfold correctedList
  simp only []
  split_ifs <;> rfl

/-- C77 fails: a single image that could not be processed prevents the list from being written. -/
theorem C77_missing_image_false {K : Type} (stem : String → String) (nav : Option (List (NavRow K)))
    (processed : List (Option String)) (h : none ∈ processed) : correctedList stem nav processed = .error .valueError := by
  unfold correctedList
  simp only []
  rw [if_pos]
  intro he
  have key : ∀ l : List (Option String), (l.filterMap (·.map stem)).length ≤ l.length := fun l =>
    List.length_filterMap_le _ _
  obtain ⟨a, b, rfl⟩ := List.append_of_mem h
  simp only [List.filterMap_append, List.filterMap_cons, Option.map_none, List.length_append, List.length_cons] at he
  have := key a
  have := key b
  omega

/-- C77 fails: two images of the same name in different folders get the output path of the first. -/
theorem C77_same_name_false : ∃ (stem : String → String) (rows : List (NavRow ℚ)),
    correctedList stem (some rows) [some "out/1.png", some "out/2.png"] =
      .ok [(⟨"a/im.png", .nan, 0⟩, "out/1.png"), (⟨"b/im.png", .nan, 0⟩, "out/1.png")] :=
  ⟨fun _ => "im", [⟨"a/im.png", .nan, 0⟩, ⟨"b/im.png", .nan, 0⟩], rfl⟩

example : correctedList (fun s => if s = "b.raw" ∨ s = "b.png" then "b" else s)
    (some [(⟨"a.raw", .nan, 0⟩ : NavRow ℚ), ⟨"b.raw", .nan, 0⟩]) [some "b.png"] =
      .ok [(⟨"b.raw", .nan, 0⟩, "b.png")] := by
  simp [correctedList]

end Oplab.Props
