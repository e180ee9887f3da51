import Verif.Model.Correct

/-! Vocabulary for the image selection properties. -/

namespace Oplab.Spec

/-- The row describes an image to be used: it is on the user's list (if there is one), its image exists (for bag
files this is not checked) and its altitude `a` is strictly within the limits. -/
def Usable {K : Type} [LT K] (stem : String → String) (d : ImgDive K) (r : NavRow K) (a : K) : Prop :=
  (∀ lines, d.userList = some lines → ∃ l ∈ lines, stem l = stem r.path) ∧
  (d.bag = true ∨ d.onDisk r.path = true) ∧
  r.alt = .val a ∧ d.altMin < a ∧ a < d.altMax

/-- How the image of a row is referred to. -/
def refOf {K : Type} (d : ImgDive K) (r : NavRow K) : ImgRef K := if d.bag then .stamp r.stamp else .file r.path

end Oplab.Spec
