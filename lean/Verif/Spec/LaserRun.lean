import Verif.Model.LaserRun
import Verif.Spec.LaserUncert

/-!
# A sheet of laser light seen by two cameras, one above the other
-/

namespace Oplab.Spec
open Oplab

/-- The upper, or left, camera of a rectified pair. -/
def camA (f cx cy : ℝ) : Matrix (Fin 3) (Fin 4) ℝ := !![f, 0, cx, 0; 0, f, cy, 0; 0, 0, 1, 0]

/-- The other camera, displaced along the columns of the image. -/
def camB (f cx cy ty : ℝ) : Matrix (Fin 3) (Fin 4) ℝ := !![f, 0, cx, 0; 0, f, cy, ty; 0, 0, 1, 0]

/-- The rectified point seen at row `p.1` and column `p.2`. -/
def SeenAt (P : Matrix (Fin 3) (Fin 4) ℝ) (X : V3 ℝ) (p : ℝ × ℝ) : Prop := Sees P ![X.x, X.y, X.z, 1] p

/-- Detections of one image: columns are integers, each at most once and in order. -/
def Columns (pk : List (ℝ × ℝ)) : Prop := pk.Pairwise (fun a b => a.2 < b.2) ∧ ∀ p ∈ pk, ∃ u : ℤ, p.2 = (u : ℝ)

/-- Detections without errors in a pair of images: whenever there is one in the same column of both images, they are the
images of one point in front of the cameras that is on the sheet, given by the vehicle axes: forward is up in the image, right
is to the right and down is away from the camera. -/
def CleanFrame (P1 P2 : Matrix (Fin 3) (Fin 4) ℝ) (R : Matrix (Fin 3) (Fin 3) ℝ) (n : V3 ℝ) (d : ℝ)
    (f : List (ℝ × ℝ) × List (ℝ × ℝ)) : Prop :=
  Columns f.1 ∧ Columns f.2 ∧ ∀ p ∈ f.1, ∀ q ∈ f.2, q.2 = p.2 → ∃ X c : V3 ℝ, 0 < X.z ∧ SeenAt P1 X p ∧ SeenAt P2 X q ∧
    R.mulVec ![c.x, c.y, c.z] = ![X.x, X.y, X.z] ∧ OnPlane n d ⟨-c.y, c.x, c.z⟩

/-- The same plane with first coefficient one. -/
noncomputable def sheet (n : V3 ℝ) (d : ℝ) : V3 ℝ × ℝ := (⟨1, n.y / n.x, n.z / n.x⟩, d / n.x)

end Oplab.Spec
