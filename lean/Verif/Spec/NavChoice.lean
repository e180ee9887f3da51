import Verif.Model.NavChoice

/-! # Specification for C252 -/

namespace Oplab.Spec
open Oplab

/-- The files of the filter are in its folder. -/
def NavDir.Sound (d : NavDir) : Prop := ∀ f c, d.ekf f c = true → d.ekfFolder f = true

/-- The table exists. -/
def TableExists (d : NavDir) (t : NavTable) : Prop := if t.filter then d.ekf t.folder t.camera = true else d.dr t.folder t.camera = true

/-- Full property: if the navigation of a camera was computed, correct_images finds it with its default settings. -/
def NavigationFound : Prop :=
  ∀ (d : NavDir) (camera : String), NavDir.Sound d → (∃ f ∈ d.listing, jsonNamed f = true ∧ (d.ekf f camera = true ∨ d.dr f camera = true)) →
    ∃ t, navTable d none camera = .ok t

/-- Full property: if the navigation of a camera is in the folder that is chosen, it is found. -/
def NavigationOfFolderFound : Prop :=
  ∀ (d : NavDir) (folder : List Char) (camera : String), NavDir.Sound d → (d.ekf folder camera = true ∨ d.dr folder camera = true) →
    ∃ t, navTable d (some folder) camera = .ok t

/-- Full property: the choice does not depend on the order of the listing. -/
def ChoiceListingFree : Prop :=
  ∀ (d : NavDir) (listing : List (List Char)) (camera : String), d.listing.Perm listing →
    ∀ t t', navTable d none camera = .ok t → navTable { d with listing := listing } none camera = .ok t' → t = t'

/-- Full property: with default settings the programs use the same navigation. -/
def SameNavigation : Prop :=
  ∀ (d : NavDir) (camera : String), NavDir.Sound d → ∀ t t', navTable d none camera = .ok t → mergeTable d camera = .ok t' → t = t'

end Oplab.Spec
