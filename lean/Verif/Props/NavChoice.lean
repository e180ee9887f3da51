import Verif.Spec.NavChoice
import Mathlib.Tactic

/-! # C252: which navigation the other programs use -/

namespace Oplab.Props
open Oplab Oplab.Spec

/-- C252: the table that correct_images uses exists, is of the camera, and is in the configured folder or, by default, in the first entry of the
listing whose name starts with `json_`; it is of the filter exactly if that folder has one for it. -/
theorem C252_used (d : NavDir) (configured : Option (List Char)) (camera : String) (t : NavTable) (h : navTable d configured camera = .ok t) :
    TableExists d t ∧ t.camera = camera ∧ (t.filter = true ↔ d.ekfFolder t.folder = true) ∧
    (∀ f, configured = some f → t.folder = f) ∧
    (configured = none → ∃ l₁ l₂, d.listing = l₁ ++ t.folder :: l₂ ∧ jsonNamed t.folder = true ∧ ∀ f ∈ l₁, jsonNamed f = false) := by
  cases hf : navFolder d configured with
  | error e => rw [navTable, hf] at h; cases h
  | ok f =>
    have key : t.folder = f ∧ TableExists d t ∧ t.camera = camera ∧ (t.filter = true ↔ d.ekfFolder t.folder = true) := by
      simp only [navTable, hf, bind, Except.bind] at h
      split_ifs at h with h1 h2 h3
      · cases h
        exact ⟨rfl, by simpa [TableExists] using h2, rfl, by simp [h1]⟩
      · cases h
        exact ⟨rfl, by simpa [TableExists] using h3, rfl, by simp [h1]⟩
    refine ⟨key.2.1, key.2.2.1, key.2.2.2, ?_, ?_⟩
    · rintro g rfl
      cases hf
      exact key.1
    · rintro rfl
      rw [key.1]
      have hl : ∃ rest, d.listing.filter jsonNamed = f :: rest := by
        simp only [navFolder] at hf
        split at hf
        · cases hf
        · rename_i g rest he
          cases hf
          exact ⟨rest, he⟩
      obtain ⟨rest, he⟩ := hl
      obtain ⟨l₁, l₂, h1, h2, h3, -⟩ := List.filter_eq_cons_iff.mp he
      exact ⟨l₁, l₂, h1, h3, fun g hg => by simpa using h2 g hg⟩

/-- C252 (part of: the navigation of a camera is found if it was computed): so it is if there is one folder `json_…`, and no filter folder without a
table for the camera. -/
theorem C252_found_partial (d : NavDir) (camera : String) (f : List Char) (hs : NavDir.Sound d) (h1 : d.listing.filter jsonNamed = [f])
    (h2 : d.ekfFolder f = true → d.ekf f camera = true) (h : d.ekf f camera = true ∨ d.dr f camera = true) :
    navTable d none camera = .ok ⟨f, d.ekf f camera, camera⟩ := by
  have hf : navFolder d none = .ok f := by simp [navFolder, h1]
  simp only [navTable, hf, bind, Except.bind]
  by_cases he : d.ekfFolder f = true
  · rw [if_pos he, if_pos (h2 he), h2 he]
  · have hn : d.ekf f camera = false := by
      rw [Bool.eq_false_iff]
      exact fun hc => he (hs f camera hc)
    rw [hn] at h ⊢
    rw [if_neg he, if_pos (by simpa using h)]

/-- C252: several dives: for each dive the choice is that of its own folder and its own configuration, whatever was chosen for the dives before. -/
theorem C252_dives (camera : String) (path : Option (List Char)) (dives : List (NavDir × Option (List Char))) (ts : List NavTable) :
    navDives camera path dives = .ok ts ↔ List.Forall₂ (fun d t => navTable d.1 d.2 camera = .ok t) dives ts := by
  have hone : ∀ (d : NavDir) (c : Option (List Char)) (f : List Char), navFolder d c = .ok f →
      navTable d (some f) camera = navTable d c camera := by
    intro d c f hf
    simp only [navTable, hf, show navFolder d (some f) = .ok f from rfl]
  induction dives generalizing path ts with
  | nil =>
    simp only [navDives, List.forall₂_nil_left_iff, Except.ok.injEq]
    exact eq_comm
  | cons x rest ih =>
    obtain ⟨d, c⟩ := x
    rw [List.forall₂_cons_left_iff]
    constructor
    · intro h
      cases hf : navFolder d c with
      | error e => simp only [navDives, loadPath, hf, bind, Except.bind] at h; cases h
      | ok f =>
        cases ht : navTable d (some f) camera with
        | error e => simp only [navDives, loadPath, hf, ht, bind, Except.bind] at h; cases h
        | ok t =>
          cases hr : navDives camera (some f) rest with
          | error e => simp only [navDives, loadPath, hf, ht, hr, bind, Except.bind] at h; cases h
          | ok us =>
            simp only [navDives, loadPath, hf, ht, hr, bind, Except.bind] at h
            cases h
            exact ⟨t, us, (hone d c f hf) ▸ ht, (ih (some f) us).mp hr, rfl⟩
    · rintro ⟨t, us, ht, hr, rfl⟩
      cases hf : navFolder d c with
      | error e => simp only [navTable, hf, bind, Except.bind] at ht; cases ht
      | ok f =>
        have ht' := hone d c f hf
        simp only [navDives, loadPath, hf, ht', ht, (ih (some f) us).mpr hr, bind, Except.bind]

/-- C252: the conversion to the ACFR format and rescaling read the same table as correct_images wherever they find one. -/
theorem C252_acfr (d : NavDir) (camera : String) (hs : NavDir.Sound d) :
    (∀ t, acfrTable d camera = .ok t → navTable d none camera = .ok t) ∧
    (∀ f t, rescaleTable d f camera = .ok t → navTable d (some f) camera = .ok t) := by
  constructor
  · intro t h
    unfold acfrTable at h
    split at h
    · cases h
    · rename_i f rest he
      split_ifs at h with hk
      cases h
      simp only [navTable, navFolder, he, bind, Except.bind, hs f camera hk, hk, if_true]
  · intro f t h
    unfold rescaleTable at h
    split_ifs at h with hk
    cases h
    simp only [navTable, navFolder, bind, Except.bind, hs f camera hk, hk, if_true]

private def nameA : List Char := ['j', 's', 'o', 'n', '_', 'r', 'e', 'n', 'a', 'v', '_', 'a']
private def nameB : List Char := ['j', 's', 'o', 'n', '_', 'r', 'e', 'n', 'a', 'v', '_', 'b']
private def nameOld : List Char := ['j', 's', 'o', 'n', '_', 'o', 'l', 'd']

/-- C252: it is not so that the navigation is found by default if it was computed: the first listed entry may be another one without it. -/
theorem C252_found_false : ¬ NavigationFound := by
  intro h
  obtain ⟨t, ht⟩ := h ⟨[nameOld, nameA], fun f => f = nameA, fun f _ => f = nameA, fun _ _ => false⟩ "Cam" (fun f c h => h)
    ⟨nameA, by simp, by decide, Or.inl (by simp)⟩
  have he : navTable ⟨[nameOld, nameA], fun f => f = nameA, fun f _ => f = nameA, fun _ _ => false⟩ none "Cam" = .error .quit := rfl
  rw [he] at ht
  cases ht

/-- C252: it is not so that the navigation in the chosen folder is found: with tables of the filter for other cameras only, that of dead reckoning
is not used. -/
theorem C252_folder_false : ¬ NavigationOfFolderFound := by
  intro h
  obtain ⟨t, ht⟩ := h ⟨[nameA], fun _ => true, fun _ c => c = "Other", fun _ c => c = "Cam"⟩ nameA "Cam" (fun _ _ _ => rfl) (Or.inr (by decide))
  have he : navTable ⟨[nameA], fun _ => true, fun _ c => c = "Other", fun _ c => c = "Cam"⟩ (some nameA) "Cam" = .error .quit := rfl
  rw [he] at ht
  cases ht

/-- C252: it is not so that the choice does not depend on the order of the listing. -/
theorem C252_listing_false : ¬ ChoiceListingFree := by
  intro h
  have := h ⟨[nameA, nameB], fun _ => true, fun _ _ => true, fun _ _ => true⟩ [nameB, nameA] "Cam" (List.Perm.swap ..)
    ⟨nameA, true, "Cam"⟩ ⟨nameB, true, "Cam"⟩ rfl rfl
  revert this
  decide

/-- C252: it is not so that the programs use the same navigation: the script that merges data sets looks only at `json_renav_…`. -/
theorem C252_same_false : ¬ SameNavigation := by
  intro h
  have := h ⟨[nameOld, nameA], fun _ => true, fun _ _ => true, fun _ _ => true⟩ "Cam" (fun _ _ _ => rfl)
    ⟨nameOld, true, "Cam"⟩ ⟨nameA, true, "Cam"⟩ rfl rfl
  revert this
  decide

example : navTable ⟨[['n', 'a', 'v'], nameA], fun _ => false, fun _ _ => false, fun _ _ => true⟩ none "Cam" = .ok ⟨nameA, false, "Cam"⟩ := rfl

end Oplab.Props
