import Verif.Spec.NavHistory
import Mathlib.Data.List.Induction
import Mathlib.Tactic.Common
import Mathlib.Tactic.Push

/-! # C269: the navigation used after several processing runs -/

namespace Oplab.Props

open Oplab.Spec

private theorem runs_append (r : NavRun) : ∀ (rs : List NavRun) (s : NavTables) (i : ℕ),
    navRuns s i (rs ++ [r]) = navRun (navRuns s i rs) (i + rs.length) r
  | [], s, i => rfl
  | b :: rs, s, i => by
    show navRuns (navRun s i b) (i + 1) (rs ++ [r]) = navRun (navRuns (navRun s i b) (i + 1) rs) (i + (rs.length + 1)) r
    rw [runs_append r rs, show i + 1 + rs.length = i + (rs.length + 1) by omega]

private theorem mem_folders (rs : List NavRun) (f : List Char) : f ∈ (navRuns noTables 0 rs).folders ↔ ∃ r ∈ rs, r.folder = f := by
  induction rs using List.reverseRecOn with
  | nil => simp [navRuns, noTables]
  | append_singleton rs r ih =>
    rw [runs_append]
    unfold navRun
    split
    · rename_i h
      simp only [navRefused, Bool.and_eq_true, List.contains_iff_mem] at h
      rw [ih]
      constructor
      · rintro ⟨b, hb, h1⟩; exact ⟨b, List.mem_append_left _ hb, h1⟩
      · rintro ⟨b, hb, h1⟩
        rcases List.mem_append.mp hb with hb | hb
        · exact ⟨b, hb, h1⟩
        · rw [List.mem_singleton] at hb; subst hb; exact ih.mp (h1 ▸ h.1.1)
    · dsimp only
      split
      · rename_i _ h
        rw [List.contains_iff_mem] at h
        rw [ih]
        constructor
        · rintro ⟨b, hb, h1⟩; exact ⟨b, List.mem_append_left _ hb, h1⟩
        · rintro ⟨b, hb, h1⟩
          rcases List.mem_append.mp hb with hb | hb
          · exact ⟨b, hb, h1⟩
          · rw [List.mem_singleton] at hb; subst hb; exact ih.mp (h1 ▸ h)
      · rw [List.mem_append, ih]
        constructor
        · rintro (⟨b, hb, h1⟩ | h1)
          · exact ⟨b, List.mem_append_left _ hb, h1⟩
          · exact ⟨r, by simp, (List.mem_singleton.mp h1).symm⟩
        · rintro ⟨b, hb, h1⟩
          rcases List.mem_append.mp hb with hb | hb
          · exact Or.inl ⟨b, hb, h1⟩
          · rw [List.mem_singleton] at hb; subst hb; right; simp [h1]

private theorem accepted_last (rs : List NavRun) (r : NavRun) : Accepted (rs ++ [r]) rs.length ↔ navRefused (navRuns noTables 0 rs) r = false := by
  have hr : (rs ++ [r])[rs.length]? = some r := by simp
  have hcont : (navRuns noTables 0 rs).folders.contains r.folder = true ↔ ∃ b ∈ rs, b.folder = r.folder := by
    rw [List.contains_iff_mem, mem_folders]
  unfold Accepted navRefused
  constructor
  · rintro ⟨r', h1, h2⟩
    rw [hr] at h1
    cases h1
    rcases h2 with h2 | h2 | h2
    · simp [h2]
    · simp [h2]
    · cases hc : (navRuns noTables 0 rs).folders.contains r.folder with
      | false => rw [Bool.false_and, Bool.false_and]
      | true =>
        obtain ⟨b, hb, he⟩ := hcont.mp hc
        obtain ⟨j, hj, hjb⟩ := List.getElem_of_mem hb
        exact absurd he (h2 j b hj (by rw [List.getElem?_append_left hj, List.getElem?_eq_getElem hj, hjb]))
  · intro h
    refine ⟨r, hr, ?_⟩
    cases hf : r.force with
    | true => left; rfl
    | false =>
      right
      cases hrel : r.relative with
      | true => left; rfl
      | false =>
      right
      intro j b hj hb he
      rw [hf, hrel, Bool.not_false, Bool.and_true, Bool.and_true] at h
      rw [List.getElem?_append_left hj] at hb
      rw [hcont.mpr ⟨b, List.mem_of_getElem? hb, he⟩] at h
      cases h

private theorem accepted_before {rs : List NavRun} {r : NavRun} {i : ℕ} (hi : i < rs.length) : Accepted (rs ++ [r]) i ↔ Accepted rs i := by
  unfold Accepted
  rw [List.getElem?_append_left hi]
  constructor
  · rintro ⟨b, hb, h⟩
    refine ⟨b, hb, h.imp_right fun h => h.imp_right fun h j c hj hc => h j c hj ?_⟩
    rw [List.getElem?_append_left (by omega)]; exact hc
  · rintro ⟨b, hb, h⟩
    refine ⟨b, hb, h.imp_right fun h => h.imp_right fun h j c hj hc => h j c hj ?_⟩
    rw [List.getElem?_append_left (by omega)] at hc; exact hc

private theorem writes_iff (r : NavRun) (t : NavTable) : (wantsTable r t && r.finished t) = true ↔ WritesTable r t := by
  unfold wantsTable WritesTable writesCsv
  simp only [Bool.and_eq_true, Bool.not_eq_true', decide_eq_true_eq, List.any_eq_true]
  constructor
  · rintro ⟨⟨⟨⟨h0, h1⟩, h2⟩, c, hc, ⟨h3, h4⟩, h5⟩, h6⟩
    refine ⟨h0, h1, h2.symm, h6, c, hc, h3, h4, ?_⟩
    cases hf : t.filter with
    | true =>
      rw [hf] at h5
      simp only [if_true, Bool.and_eq_true, decide_eq_true_eq] at h5
      exact Or.inl ⟨rfl, h5.1, h5.2.1, h5.2.2⟩
    | false =>
      rw [hf] at h5
      simp only [Bool.false_eq_true, if_false, Bool.and_eq_true, decide_eq_true_eq] at h5
      exact Or.inr ⟨rfl, h5.1, h5.2⟩
  · rintro ⟨h0, h1, h2, h6, c, hc, h3, h4, h5⟩
    refine ⟨⟨⟨⟨h0, h1⟩, h2.symm⟩, c, hc, ⟨h3, h4⟩, ?_⟩, h6⟩
    rcases h5 with ⟨hf, a, b, d⟩ | ⟨hf, b, d⟩
    · rw [hf]; simp [a, b, d]
    · rw [hf]; simp [b, d]

/-- C269: a table of poses is that of the last run that was not refused and wrote it, over all histories, killed runs included. -/
theorem C269_origin (runs : List NavRun) (t : NavTable) (i : ℕ) :
    (navRuns noTables 0 runs).written t = some i ↔
      (Accepted runs i ∧ (∀ r : NavRun, runs[i]? = some r → WritesTable r t) ∧
        ∀ (j : ℕ) (r : NavRun), i < j → runs[j]? = some r → Accepted runs j → ¬ WritesTable r t) := by
  induction runs using List.reverseRecOn with
  | nil =>
    simp only [navRuns, noTables]
    constructor
    · intro h; cases h
    · rintro ⟨⟨r, hr, -⟩, -⟩; simp at hr
  | append_singleton rs r ih =>
    rw [runs_append, Nat.zero_add]
    have hr : (rs ++ [r])[rs.length]? = some r := by simp
    -- the last run wrote the table
    by_cases hw : navRefused (navRuns noTables 0 rs) r = false ∧ WritesTable r t
    · have e : (navRun (navRuns noTables 0 rs) rs.length r).written t = some rs.length := by
        unfold navRun
        rw [if_neg (by rw [hw.1]; simp)]
        dsimp only
        rw [if_pos ((writes_iff r t).mpr hw.2)]
      rw [e]
      constructor
      · intro h
        cases h
        refine ⟨(accepted_last rs r).mpr hw.1, fun r' h' => ?_, fun j r' hj hr' => ?_⟩
        · rw [hr] at h'; cases h'; exact hw.2
        · have := (List.getElem?_eq_some_iff.mp hr').1
          simp at this; omega
      · rintro ⟨⟨b, hb, -⟩, -, h3⟩
        have hlt := (List.getElem?_eq_some_iff.mp hb).1
        simp only [List.length_append, List.length_singleton] at hlt
        by_cases hi : i = rs.length
        · rw [hi]
        · exact absurd hw.2 (h3 rs.length r (by omega) hr ((accepted_last rs r).mpr hw.1))
    · have e : (navRun (navRuns noTables 0 rs) rs.length r).written t = (navRuns noTables 0 rs).written t := by
        unfold navRun
        split
        · rfl
        · rename_i h
          dsimp only
          rw [if_neg]
          intro h'
          exact hw ⟨by simpa using h, (writes_iff r t).mp h'⟩
      rw [e, ih]
      constructor
      · rintro ⟨h1, h2, h3⟩
        obtain ⟨b, hb, -⟩ := id h1
        have hi := (List.getElem?_eq_some_iff.mp hb).1
        refine ⟨(accepted_before hi).mpr h1, fun r' hr' => h2 r' (by rw [List.getElem?_append_left hi] at hr'; exact hr'), fun j r' hj hr' ha => ?_⟩
        have hlt := (List.getElem?_eq_some_iff.mp hr').1
        simp only [List.length_append, List.length_singleton] at hlt
        by_cases hjl : j < rs.length
        · exact h3 j r' hj (by rw [List.getElem?_append_left hjl] at hr'; exact hr') ((accepted_before hjl).mp ha)
        · have : j = rs.length := by omega
          subst this
          rw [hr] at hr'; cases hr'
          exact fun hw' => hw ⟨(accepted_last rs r).mp ha, hw'⟩
      · rintro ⟨h1, h2, h3⟩
        obtain ⟨b, hb, -⟩ := id h1
        have hlt := (List.getElem?_eq_some_iff.mp hb).1
        simp only [List.length_append, List.length_singleton] at hlt
        by_cases hi : i < rs.length
        · refine ⟨(accepted_before hi).mp h1, fun r' hr' => h2 r' (by rw [List.getElem?_append_left hi]; exact hr'), fun j r' hj hr' ha => ?_⟩
          have hjl := (List.getElem?_eq_some_iff.mp hr').1
          exact h3 j r' hj (by rw [List.getElem?_append_left hjl]; exact hr') ((accepted_before hjl).mpr ha)
        · have : i = rs.length := by omega
          subst this
          exact absurd ⟨(accepted_last rs r).mp h1, h2 r hr⟩ hw

private theorem only_folder {rs : List NavRun} {f : List Char} {listing : List (List Char)} (hne : rs ≠ []) (hf : ∀ b ∈ rs, b.folder = f)
    (hl : ListsFolders (navRuns noTables 0 rs) listing) : navFolder ((navRuns noTables 0 rs).dir listing) none = .ok f := by
  unfold navFolder NavTables.dir
  dsimp only
  cases hx : listing.filter jsonNamed with
  | nil =>
    obtain ⟨b, hb⟩ := List.exists_mem_of_ne_nil rs hne
    have := (hl f).mpr ((mem_folders rs f).mpr ⟨b, hb, hf b hb⟩)
    rw [hx] at this; cases this
  | cons g rest =>
    dsimp only
    have := (hl g).mp (by rw [hx]; exact List.mem_cons_self)
    obtain ⟨b, hb, h⟩ := (mem_folders rs g).mp this
    rw [← h, hf b hb]

private theorem last_written {before : List NavRun} {r : NavRun} {t : NavTable} (ha : navRefused (navRuns noTables 0 before) r = false)
    (hw : WritesTable r t) : (navRuns noTables 0 (before ++ [r])).written t = some before.length := by
  rw [C269_origin]
  refine ⟨(accepted_last before r).mpr ha, fun r' h => ?_, fun j r' hj hr' => ?_⟩
  · simp at h; subst h; exact hw
  · have := (List.getElem?_eq_some_iff.mp hr').1
    simp at this; omega

/-- C269: if all runs are for the same window and the last uses the filter and has it write the camera, its positions are used. -/
theorem C269_filter_partial (before : List NavRun) (r : NavRun) (listing : List (List Char)) (camera : String) (hend : RunEnds r)
    (hr : navRefused (navRuns noTables 0 before) r = false) (hw : ∀ b ∈ before, b.folder = r.folder) (hrel : r.relative = false) (hcsv : r.csv = true) (hekf : r.ekf = true)
    (c : CameraOutput) (hc : c ∈ r.cameras) (hname : c.name = camera) (hdr : 0 < c.drPoses) (hn : 1 < c.ekfPoses) (hwant : c.ekfWanted = true)
    (hl : ListsFolders (navRuns noTables 0 (before ++ [r])) listing) :
    navUsed (navRuns noTables 0 (before ++ [r])) listing none camera = .ok (some before.length) := by
  have hfold : ∀ b ∈ before ++ [r], b.folder = r.folder := by
    intro b hb
    rcases List.mem_append.mp hb with hb | hb
    · exact hw b hb
    · rw [List.mem_singleton] at hb; rw [hb]
  have hf := only_folder (by simp) hfold hl
  have hwr := last_written (t := ⟨r.folder, true, camera⟩) hr
    ⟨hrel, hcsv, rfl, hend _, c, hc, hname, hdr, Or.inl ⟨rfl, hekf, hwant, hn⟩⟩
  have hmade : (navRuns noTables 0 (before ++ [r])).ekfMade.contains r.folder = true := by
    rw [runs_append, List.contains_iff_mem]
    unfold navRun
    rw [if_neg (by rw [hr]; simp)]
    dsimp only
    rw [if_pos]
    · simp
    · unfold makesEkf writesCsv
      simp only [Bool.and_eq_true, Bool.not_eq_true', Bool.or_eq_true, List.any_eq_true, decide_eq_true_eq]
      exact ⟨⟨⟨hrel, hcsv⟩, hekf⟩, Or.inr ⟨c, hc, ⟨hdr, hwant, hn⟩, hend _⟩⟩
  unfold navUsed navTable
  simp only [bind, Except.bind]
  rw [hf]
  simp only [NavTables.dir, hmade, hwr, Option.isSome_some, if_true]

private theorem no_ekf (rs : List NavRun) (h : ∀ b ∈ rs, b.ekf = false) : (navRuns noTables 0 rs).ekfMade = [] := by
  induction rs using List.reverseRecOn with
  | nil => rfl
  | append_singleton rs r ih =>
    rw [runs_append]
    have e := ih fun b hb => h b (List.mem_append_left _ hb)
    unfold navRun
    split
    · exact e
    · dsimp only
      rw [if_neg, e]
      unfold makesEkf
      rw [h r (by simp)]
      simp

/-- C269: if all runs are for the same window and none uses the filter, the positions of the last are used. -/
theorem C269_dead_reckoning_partial (before : List NavRun) (r : NavRun) (listing : List (List Char)) (camera : String) (hend : RunEnds r)
    (hloc : LocatesCamera r camera) (hr : navRefused (navRuns noTables 0 before) r = false) (hw : ∀ b ∈ before, b.folder = r.folder)
    (hekf : ∀ b ∈ before ++ [r], b.ekf = false) (hl : ListsFolders (navRuns noTables 0 (before ++ [r])) listing) :
    navUsed (navRuns noTables 0 (before ++ [r])) listing none camera = .ok (some before.length) := by
  obtain ⟨hrel, -, hcsv, c, hc, hname, hn, hwant⟩ := hloc
  have hfold : ∀ b ∈ before ++ [r], b.folder = r.folder := by
    intro b hb
    rcases List.mem_append.mp hb with hb | hb
    · exact hw b hb
    · rw [List.mem_singleton] at hb; rw [hb]
  have hf := only_folder (by simp) hfold hl
  have hwr := last_written (t := ⟨r.folder, false, camera⟩) hr
    ⟨hrel, hcsv, rfl, hend _, c, hc, hname, by omega, Or.inr ⟨rfl, hwant, hn⟩⟩
  unfold navUsed navTable
  simp only [bind, Except.bind]
  rw [hf]
  simp only [NavTables.dir, no_ekf _ hekf, hwr, List.contains_nil, Bool.false_eq_true, if_false, Option.isSome_some, if_true]

private def nA : List Char := "json_renav_20180811_100000_20180811_110000".toList
private def nB : List Char := "json_renav_20180811_100000_20180811_120000".toList

private def runOf (folder : List Char) (ekf : Bool) (finished : NavTable → Bool) : NavRun :=
  ⟨folder, true, true, ekf, true, [⟨"LC", 9, true, 9, true⟩, ⟨"RC", 9, true, 9, true⟩], finished, false⟩

private theorem listsOne (rs : List NavRun) (f : List Char) (hj : jsonNamed f = true) (hne : rs ≠ []) (h : ∀ b ∈ rs, b.folder = f) :
    ListsFolders (navRuns noTables 0 rs) [f] := by
  intro g
  rw [mem_folders]
  simp only [List.filter_cons, hj, if_true, List.filter_nil, List.mem_singleton]
  constructor
  · rintro rfl
    obtain ⟨b, hb⟩ := List.exists_mem_of_ne_nil rs hne
    exact ⟨b, hb, h b hb⟩
  · rintro ⟨b, hb, rfl⟩
    exact h b hb

/-- The hypotheses of the theorems above hold for real histories. -/
example : navUsed (navRuns noTables 0 ([runOf nA false fun _ => true, runOf nA true fun t => t.camera = "LC"] ++ [runOf nA true fun _ => true])) [nA] none "RC" =
    .ok (some 2) :=
  C269_filter_partial _ _ _ _ (fun _ => rfl) rfl (by decide +kernel) rfl rfl rfl ⟨"RC", 9, true, 9, true⟩ (by simp [runOf]) rfl (by decide) (by decide) rfl
    (listsOne _ _ (by decide +kernel) (by simp) (by decide +kernel))

example : navUsed (navRuns noTables 0 ([runOf nA false fun _ => true] ++ [runOf nA false fun _ => true])) [nA] none "LC" = .ok (some 1) :=
  C269_dead_reckoning_partial _ _ _ _ (fun _ => rfl) ⟨rfl, by decide +kernel, rfl, ⟨"LC", 9, true, 9, true⟩, by simp [runOf], rfl, by decide, rfl⟩ rfl
    (by decide +kernel) (by decide +kernel) (listsOne _ _ (by decide +kernel) (by simp) (by decide +kernel))

/-- C269 is false: after a forced run without the filter, the positions of an earlier run with the filter are used. -/
theorem C269_filter_false : ¬ UsesLastRunOfWindow := by
  intro h
  have := h [runOf nA true fun _ => true] (runOf nA false fun _ => true) [nA] "LC" (fun _ => rfl)
    ⟨rfl, by decide +kernel, rfl, ⟨"LC", 9, true, 9, true⟩, by simp [runOf], rfl, by decide, rfl⟩ rfl (by decide +kernel)
    (listsOne _ _ (by decide +kernel) (by simp) (by decide +kernel))
  have e : navUsed (navRuns noTables 0 ([runOf nA true fun _ => true] ++ [runOf nA false fun _ => true])) [nA] none "LC" = .ok (some 0) := by
    rfl
  rw [e] at this
  injection this with this
  exact absurd (Option.some.inj this) (by decide)

/-- C269 is false: after a run for another window, the positions of the run whose folder comes first in the listing are used. -/
theorem C269_window_false : ¬ UsesLastRunOfFilter := by
  intro h
  have := h [runOf nA true fun _ => true] (runOf nB true fun _ => true) [nA, nB] "LC" (by
      intro b hb
      have hb' : b = runOf nA true (fun _ => true) ∨ b = runOf nB true (fun _ => true) := by simpa using hb
      rcases hb' with rfl | rfl
      · exact ⟨fun _ => rfl, ⟨rfl, by decide +kernel, rfl, ⟨"LC", 9, true, 9, true⟩, by simp [runOf], rfl, by decide, rfl⟩, rfl, by simp [runOf]⟩
      · exact ⟨fun _ => rfl, ⟨rfl, by decide +kernel, rfl, ⟨"LC", 9, true, 9, true⟩, by simp [runOf], rfl, by decide, rfl⟩, rfl, by simp [runOf]⟩)
    rfl (by
      intro g
      have h1 : jsonNamed nA = true := by decide +kernel
      have h2 : jsonNamed nB = true := by decide +kernel
      rw [mem_folders]
      simp only [List.filter_cons, h1, h2, if_true, List.filter_nil]
      simp [runOf, eq_comm])
  have e : navUsed (navRuns noTables 0 ([runOf nA true fun _ => true] ++ [runOf nB true fun _ => true])) [nA, nB] none "LC" = .ok (some 0) := by
    rfl
  rw [e] at this
  injection this with this
  exact absurd (Option.some.inj this) (by decide)

/-- C269 is false: after a forced run that was killed, the cameras have positions of two runs. -/
theorem C269_killed_false : ¬ CamerasOfOneRun := by
  intro h
  have := h [runOf nA true fun _ => true, runOf nA true fun t => t.camera = "LC"] [nA] "LC" "RC" 1 0
    (listsOne _ _ (by decide +kernel) (by simp) (by decide +kernel)) rfl rfl
  exact absurd this (by decide)

/-- C269: after a run that was killed, the same command with `-F` writes all tables that it would have written. -/
theorem C269_repeat_partial (before : List NavRun) (r : NavRun) (stopped : NavTable → Bool) (t : NavTable)
    (hforce : r.force = true) (ht : (navRuns noTables 0 (before ++ [r])).written t = some before.length) :
    (navRuns noTables 0 (before ++ [{ r with finished := stopped }] ++ [r])).written t = some (before.length + 1) := by
  have hw := ((C269_origin _ _ _).mp ht).2.1 r (by simp)
  have := last_written (before := before ++ [{ r with finished := stopped }]) (r := r) (t := t) (by simp [navRefused, hforce]) hw
  rw [this]
  simp

/-- Non-vacuity. -/
example : (navRuns noTables 0 ([runOf nA false fun _ => true] ++ [runOf nA true fun _ => true])).written ⟨nA, true, "LC"⟩ = some 1 := rfl

/-- C269 is false: without `-F` the second run is refused, and tables are missing for good. -/
theorem C269_repeat_false : ¬ RepeatCompletes := by
  intro h
  have := h [] { runOf nA true (fun _ => true) with force := false } (fun _ => false) ⟨nA, true, "LC"⟩ (fun _ => rfl) rfl rfl
  have e : (navRuns noTables 0 ([] ++ [{ runOf nA true (fun _ => true) with force := false, finished := fun _ => false }] ++
      [{ runOf nA true (fun _ => true) with force := false }])).written ⟨nA, true, "LC"⟩ = none := rfl
  rw [e] at this
  cases this

/-- C269: computing relative uncertainties for a window that was processed changes neither the tables nor which positions are used. -/
theorem C269_relative_partial (before : List NavRun) (r : NavRun) (hrel : r.relative = true) (hb : ∃ b ∈ before, b.folder = r.folder) :
    (navRuns noTables 0 (before ++ [r])).written = (navRuns noTables 0 before).written ∧
      ∀ (listing : List (List Char)) (configured : Option (List Char)) (camera : String),
        navUsed (navRuns noTables 0 (before ++ [r])) listing configured camera = navUsed (navRuns noTables 0 before) listing configured camera := by
  have hin : (navRuns noTables 0 before).folders.contains r.folder = true := by
    rw [List.contains_iff_mem, mem_folders]; exact hb
  have e : navRuns noTables 0 (before ++ [r]) = navRuns noTables 0 before := by
    rw [runs_append]
    rw [List.contains_iff_mem] at hin
    simp [navRun, navRefused, makesEkf, wantsTable, hrel, hin]
  rw [e]
  exact ⟨rfl, fun _ _ _ => rfl⟩

/-- Non-vacuity. -/
example : { runOf nA true (fun _ => true) with relative := true }.relative = true ∧
    ∃ b ∈ [runOf nA true (fun _ => true)], b.folder = { runOf nA true (fun _ => true) with relative := true }.folder :=
  ⟨rfl, _, List.mem_singleton_self _, rfl⟩

/-- C269 is false: for a window that was not processed, it leaves an empty folder, which the corrections may find first. -/
theorem C269_relative_false : ¬ RelativeHarmless := by
  intro h
  have hl : ListsFolders (navRuns noTables 0 ([runOf nA true fun _ => true] ++ [{ runOf nB true (fun _ => true) with relative := true }])) [nB, nA] := by
    intro g
    rw [mem_folders, show [nB, nA].filter jsonNamed = [nB, nA] by decide +kernel]
    constructor
    · intro hg
      rcases List.mem_cons.mp hg with hg | hg
      · exact ⟨_, List.mem_append_right _ (List.mem_singleton_self _), hg.symm⟩
      · rw [List.mem_singleton] at hg; exact ⟨_, List.mem_append_left _ (List.mem_singleton_self _), hg.symm⟩
    · rintro ⟨b, hb, he⟩
      rcases List.mem_append.mp hb with hb | hb
      · rw [List.mem_singleton] at hb; subst hb; subst he; exact List.mem_cons_of_mem _ (List.mem_singleton_self _)
      · rw [List.mem_singleton] at hb; subst hb; subst he; exact List.mem_cons_self
  have := h [runOf nA true fun _ => true] { runOf nB true (fun _ => true) with relative := true } [nB, nA] "LC" 0 rfl hl rfl
  have e : navUsed (navRuns noTables 0 ([runOf nA true fun _ => true] ++ [{ runOf nB true (fun _ => true) with relative := true }])) [nB, nA] none "LC" =
    .error .quit := rfl
  rw [e] at this
  cases this

private theorem table_folder (runs : List NavRun) (f : List Char) (camera : String) (h : ((navRuns noTables 0 runs).written ⟨f, true, camera⟩).isSome = true) :
    f ∈ (navRuns noTables 0 runs).ekfMade := by
  induction runs using List.reverseRecOn with
  | nil => simp [navRuns, noTables] at h
  | append_singleton rs r ih =>
    rw [runs_append] at h ⊢
    unfold navRun at h ⊢
    by_cases hr : navRefused (navRuns noTables 0 rs) r = true
    · rw [if_pos hr] at h ⊢
      exact ih h
    · rw [if_neg hr] at h ⊢
      dsimp only at h ⊢
      split at h
      · rename_i hw
        rw [Bool.and_eq_true] at hw
        obtain ⟨hw, hfin⟩ := hw
        simp only [wantsTable, Bool.and_eq_true, Bool.not_eq_true', decide_eq_true_eq, List.any_eq_true, if_true] at hw
        obtain ⟨⟨⟨h1, h2⟩, h3⟩, c, hc, ⟨⟨h4, h5⟩, h6, h7⟩⟩ := hw
        rw [if_pos]
        · rw [h3]; simp
        · simp only [makesEkf, Bool.and_eq_true, Bool.not_eq_true', Bool.or_eq_true, List.any_eq_true, decide_eq_true_eq]
          exact ⟨⟨⟨h1, h2⟩, h6⟩, Or.inr ⟨c, hc, ⟨h5, h7⟩, by rw [h4, ← h3]; exact hfin⟩⟩
      · have := ih h
        split
        · exact List.mem_append_left _ this
        · exact this

/-- C269: a table of the filter in the configured folder is never overlooked, whatever runs there were, killed ones included. -/
theorem C269_never_overlooked (runs : List NavRun) (listing : List (List Char)) (f : List Char) (camera : String) (i : ℕ)
    (h : (navRuns noTables 0 runs).written ⟨f, true, camera⟩ = some i) :
    navUsed (navRuns noTables 0 runs) listing (some f) camera = .ok (some i) := by
  have hm := table_folder runs f camera (by rw [h]; rfl)
  unfold navUsed navTable navFolder
  simp [NavTables.dir, hm, h, bind, Except.bind]

/-- Non-vacuity: the second run was killed before the table of dead reckoning was written. -/
example : navUsed (navRuns noTables 0 [runOf nA false fun _ => true, runOf nA true fun t => t.filter]) [nA] (some nA) "LC" = .ok (some 1) :=
  C269_never_overlooked _ _ _ _ _ rfl

end Oplab.Props
