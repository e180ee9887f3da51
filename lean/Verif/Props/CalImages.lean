import Mathlib.Data.List.Perm.Basic
import Mathlib.Data.List.Nodup
import Verif.Spec.CalImages

/-! # C256: the images of a calibration -/

namespace Oplab.Props
open Oplab Oplab.Spec

private theorem chars_total : ∀ a b, (charsLe a b || charsLe b a) = true
  | [], b => by simp [charsLe]
  | a :: as, [] => by simp [charsLe]
  | a :: as, b :: bs => by
    simp only [charsLe]
    rcases Nat.lt_trichotomy a.toNat b.toNat with h | h | h
    · simp [h]
    · have : a = b := Char.toNat_inj.1 h
      subst this
      simpa using chars_total as bs
    · simp [h]

private theorem chars_trans : ∀ a b c, charsLe a b = true → charsLe b c = true → charsLe a c = true
  | [], _, _, _, _ => by simp [charsLe]
  | a :: as, [], _, h, _ => by simp [charsLe] at h
  | a :: as, b :: bs, [], _, h => by simp [charsLe] at h
  | a :: as, b :: bs, c :: cs, h1, h2 => by
    simp only [charsLe] at h1 h2 ⊢
    split at h1
    · split at h2
      · rw [if_pos (by omega)]
      · split at h2
        · rename_i e; subst e
          rw [if_pos (by assumption)]
        · simp at h2
    · split at h1
      · rename_i _ e; subst e
        split at h2
        · rw [if_pos (by assumption)]
        · split at h2
          · rename_i _ e; subst e
            simp [chars_trans as bs cs h1 h2]
          · simp at h2
      · simp at h1

private theorem chars_antisymm : ∀ a b, charsLe a b = true → charsLe b a = true → a = b
  | [], [], _, _ => rfl
  | [], _ :: _, _, h => by simp [charsLe] at h
  | _ :: _, [], h, _ => by simp [charsLe] at h
  | a :: as, b :: bs, h1, h2 => by
    simp only [charsLe] at h1 h2
    rcases Nat.lt_trichotomy a.toNat b.toNat with h | h | h
    · have hne : b ≠ a := fun e => by subst e; omega
      rw [if_neg (by omega), if_neg hne] at h2; cases h2
    · have : a = b := Char.toNat_inj.1 h
      subst this
      simp only [Nat.lt_irrefl, if_false, if_true] at h1 h2
      rw [chars_antisymm as bs h1 h2]
    · have hne : a ≠ b := fun e => by subst e; omega
      rw [if_neg (by omega), if_neg hne] at h1; cases h1

private theorem path_total : ∀ a b, (pathLe a b || pathLe b a) = true
  | [], b => by simp [pathLe]
  | a :: as, [] => by simp [pathLe]
  | a :: as, b :: bs => by
    simp only [pathLe]
    by_cases h : a = b
    · subst h; simpa using path_total as bs
    · have h' : ¬ b = a := fun e => h e.symm
      simpa [h, h'] using chars_total a b

private theorem path_trans : ∀ a b c, pathLe a b = true → pathLe b c = true → pathLe a c = true
  | [], _, _, _, _ => by simp [pathLe]
  | a :: as, [], _, h, _ => by simp [pathLe] at h
  | a :: as, b :: bs, [], _, h => by simp [pathLe] at h
  | a :: as, b :: bs, c :: cs, h1, h2 => by
    simp only [pathLe] at h1 h2 ⊢
    by_cases hab : a = b
    · subst hab
      rw [if_pos rfl] at h1
      by_cases hac : a = c
      · rw [if_pos hac] at h2 ⊢; exact path_trans as bs cs h1 h2
      · rw [if_neg hac] at h2 ⊢; exact h2
    · rw [if_neg hab] at h1
      by_cases hbc : b = c
      · subst hbc; rw [if_neg hab]; exact h1
      · rw [if_neg hbc] at h2
        by_cases hac : a = c
        · subst hac
          exact absurd (chars_antisymm _ _ h1 h2) hab
        · rw [if_neg hac]; exact chars_trans _ _ _ h1 h2

private theorem path_antisymm : ∀ a b, pathLe a b = true → pathLe b a = true → a = b
  | [], [], _, _ => rfl
  | [], _ :: _, _, h => by simp [pathLe] at h
  | _ :: _, [], h, _ => by simp [pathLe] at h
  | a :: as, b :: bs, h1, h2 => by
    simp only [pathLe] at h1 h2
    by_cases h : a = b
    · subst h
      rw [if_pos rfl] at h1 h2
      rw [path_antisymm as bs h1 h2]
    · rw [if_neg h] at h1
      rw [if_neg fun e => h e.symm] at h2
      exact absurd (chars_antisymm _ _ h1 h2) h

private theorem sorted_eq (a b : List ImagePath) (hp : a.Perm b) : a.mergeSort pathLe = b.mergeSort pathLe :=
  List.Perm.eq_of_pairwise (le := fun x y => pathLe x y = true) (fun x y _ _ h1 h2 => path_antisymm x y h1 h2)
    (List.pairwise_mergeSort path_trans path_total a) (List.pairwise_mergeSort path_trans path_total b)
    ((List.mergeSort_perm _ _).trans (hp.trans (List.mergeSort_perm _ _).symm))

/-- C256: the images used are exactly those of the folders that exist. -/
theorem C256_images (resolve : ImagePath → ImagePath) (dirs : List ImageDir) (q : ImagePath) :
    q ∈ collectImages resolve dirs ↔ ∃ p, InDirs dirs p ∧ q = resolve p := by
  simp only [collectImages, List.mem_map, List.mem_mergeSort, List.mem_flatMap, dirImages]
  constructor
  · rintro ⟨p, ⟨d, hd, hp⟩, rfl⟩
    cases hn : d.names with
    | none => rw [hn] at hp; cases hp
    | some l =>
      rw [hn] at hp
      obtain ⟨n, hl, rfl⟩ := List.mem_map.1 hp
      exact ⟨_, ⟨d, hd, l, hn, n, hl, rfl⟩, rfl⟩
  · rintro ⟨p, ⟨d, hd, l, hn, n, hl, rfl⟩, rfl⟩
    refine ⟨_, ⟨d, hd, ?_⟩, rfl⟩
    rw [hn]
    exact List.mem_map.2 ⟨n, hl, rfl⟩

/-- C256: they are in the order of their paths. -/
theorem C256_sorted (dirs : List ImageDir) : (collectImages id dirs).Pairwise fun a b => pathLe a b = true := by
  rw [collectImages, List.map_id]
  exact List.pairwise_mergeSort path_trans path_total _

/-- C256: the list does not depend on the order of the folders or of their listings. -/
theorem C256_listing (resolve : ImagePath → ImagePath) (a b c : List ImageDir) (hp : a.Perm b) (hs : List.Forall₂ SameDir b c) :
    collectImages resolve a = collectImages resolve c := by
  have h1 : (a.flatMap dirImages).Perm (b.flatMap dirImages) := hp.flatMap_right _
  have h2 : (b.flatMap dirImages).Perm (c.flatMap dirImages) := by
    clear hp h1
    induction hs with
    | nil => exact List.Perm.refl _
    | @cons d e l m h hs ih =>
      rw [List.flatMap_cons, List.flatMap_cons]
      refine List.Perm.append ?_ ih
      obtain ⟨hpath, ⟨h1, h2⟩ | ⟨l', m', h1, h2, h3⟩⟩ := h
      · simp only [dirImages, h1, h2]; exact List.Perm.refl _
      · simp only [dirImages, h1, h2, hpath]; exact h3.map _
  rw [collectImages, collectImages, sorted_eq _ _ (h1.trans h2)]

/-- C256 (partial): every image is used once, if no folder is given twice. Missing: folders given twice, see `C256_once_false`. -/
theorem C256_once_partial (dirs : List ImageDir) (hn : ∀ d ∈ dirs, ∀ l, d.names = some l → l.Nodup)
    (hd : dirs.Pairwise fun d e => d.path ≠ e.path) : (collectImages id dirs).Nodup := by
  rw [collectImages, List.map_id, (List.mergeSort_perm _ _).nodup_iff, List.nodup_flatMap]
  constructor
  · intro d hdm
    unfold dirImages
    cases h : d.names with
    | none => exact List.nodup_nil
    | some l =>
      refine (hn d hdm l h).map ?_
      intro x y e
      have := List.append_cancel_left e
      simpa using this
  · refine hd.imp ?_
    intro d e hne p hp hp'
    simp only [dirImages] at hp hp'
    cases h : d.names with
    | none => rw [h] at hp; cases hp
    | some l =>
      cases h' : e.names with
      | none => rw [h'] at hp'; cases hp'
      | some m =>
        rw [h] at hp
        rw [h'] at hp'
        obtain ⟨n, -, rfl⟩ := List.mem_map.1 hp
        obtain ⟨n', -, e'⟩ := List.mem_map.1 hp'
        exact hne (List.append_inj_left' e' rfl).symm

private def calDirs : List ImageDir := [⟨[['b']], some [['2'], ['1']]⟩, ⟨[['a']], some [['3']]⟩, ⟨[['c']], none⟩]

example : (∀ d ∈ calDirs, ∀ l, d.names = some l → l.Nodup) ∧ (calDirs.Pairwise fun d e => d.path ≠ e.path) ∧
    List.Forall₂ SameDir calDirs [⟨[['b']], some [['1'], ['2']]⟩, ⟨[['a']], some [['3']]⟩, ⟨[['c']], none⟩] := by
  refine ⟨?_, by simp [calDirs], ?_⟩
  · intro d hd l hl
    simp only [calDirs, List.mem_cons, List.not_mem_nil, or_false] at hd
    rcases hd with rfl | rfl | rfl <;> simp only [Option.some.injEq, reduceCtorEq] at hl <;> subst hl <;> decide
  · exact .cons ⟨rfl, Or.inr ⟨_, _, rfl, rfl, List.Perm.swap _ _ _⟩⟩
      (.cons ⟨rfl, Or.inr ⟨_, _, rfl, rfl, List.Perm.refl _⟩⟩ (.cons ⟨rfl, Or.inl ⟨rfl, rfl⟩⟩ .nil))

/-- C256: the images of a folder that is given twice are used twice. -/
theorem C256_once_false : ¬ ImagesOnce := by
  intro h
  have h1 := h [⟨[['a']], some [['1']]⟩, ⟨[['a']], some [['1']]⟩] (by
    intro d hd l hl
    simp only [List.mem_cons, List.not_mem_nil, or_false, or_self] at hd
    subst hd
    simp only [Option.some.injEq] at hl
    subst hl; decide)
  rw [collectImages, List.map_id, (List.mergeSort_perm _ _).nodup_iff] at h1
  exact absurd h1 (by decide)

/-- C256: the names of patterns that are accepted, and their patterns. -/
theorem C256_pattern (name : String) (p : BoardPattern) : checkPattern name = .ok p ↔
    (name, p) ∈ [("Circles", BoardPattern.circles), ("circles", .circles), ("ACircles", .acircles), ("acircles", .acircles),
      ("Chessboard", .chessboard), ("chessboard", .chessboard)] := by
  constructor
  · intro h
    unfold checkPattern at h
    split at h
    · rename_i hp; cases h; rcases hp with rfl | rfl <;> decide
    split at h
    · rename_i hp; cases h; rcases hp with rfl | rfl <;> decide
    split at h
    · rename_i hp; cases h; rcases hp with rfl | rfl <;> decide
    cases h
  · intro h
    simp only [List.mem_cons, Prod.mk.injEq, List.not_mem_nil, or_false] at h
    rcases h with ⟨rfl, rfl⟩ | ⟨rfl, rfl⟩ | ⟨rfl, rfl⟩ | ⟨rfl, rfl⟩ | ⟨rfl, rfl⟩ | ⟨rfl, rfl⟩ <;> simp [checkPattern]

/-- C256 (partial): the file with the times of the images is the one that matches, if there is one only; without one the program ends.
Missing: several files, see `C256_stamp_false`. -/
theorem C256_stamp_partial {F C : Type} (listing : String → List F) (n : String) (c : C) :
    (∀ f, listing n = [f] → stampFile listing (some n) (some c) = .ok (some (f, c))) ∧
    (listing n = [] → stampFile listing (some n) (some c) = .error .quit) ∧
    (∀ f, stampFile listing (some n) (some c) = .ok (some (f, c)) → f ∈ listing n) ∧
    stampFile listing (some n) (none : Option C) = .ok none ∧ stampFile listing none (some c) = .ok none := by
  refine ⟨?_, ?_, ?_, rfl, rfl⟩
  · intro f h
    simp only [stampFile, resolveStampFile, h, List.getLast?_singleton, bind, Except.bind]
  · intro h
    simp only [stampFile, resolveStampFile, h, List.getLast?_nil, bind, Except.bind]
  · intro f h
    simp only [stampFile, resolveStampFile, bind, Except.bind] at h
    cases hl : (listing n).getLast? with
    | none => rw [hl] at h; cases h
    | some g =>
      rw [hl] at h
      simp only [Except.ok.injEq, Option.some.injEq, Prod.mk.injEq, and_true] at h
      subst h
      exact List.mem_of_getLast? hl

example : stampFile (fun _ => [7]) (some "times.csv") (some "index") = .ok (some (7, "index")) := rfl

/-- C256: of several files it is the one that is listed last. -/
theorem C256_stamp_false : ¬ StampFileListingFree := by
  intro h
  have := h [1, 2] [2, 1] (List.Perm.swap _ _ _)
  simp [resolveStampFile] at this

end Oplab.Props
