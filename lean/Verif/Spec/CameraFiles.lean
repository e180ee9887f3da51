import Verif.Model.CameraFiles

/-! # Specification for C257 -/

namespace Oplab.Spec
open Oplab
variable {α I P : Type}

/-- The name in the file of images: that of the camera, and for images of the laser that of the third camera, or of the second if there are two, with
"_laser" after it. -/
def SlotName (r : ImageRun α I) : CamSlot → Text → Prop
  | .one, n => r.names[0]? = some n
  | .two, n => r.names[1]? = some n
  | .three, n => ∃ b, n = b ++ "_laser".toList ∧ (r.names.length = 2 ∧ r.names[1]? = some b ∨ 2 < r.names.length ∧ r.names[2]? = some b)

/-- Where the camera of a list of images is mounted: for images of the laser of BioCam it is the first of the two cameras that is said to record the
laser. -/
def SlotMount (r : ImageRun α I) : CamSlot → α → Prop
  | .one, m => m = r.mount .one
  | .two, m => m = r.mount .two
  | .three, m => (r.format ≠ "biocam" ∧ m = r.mount .three) ∨ (r.format = "biocam" ∧ r.lasers[0]? = some (some true) ∧ m = r.mount .one) ∨
      (r.format = "biocam" ∧ r.lasers[0]? ≠ some (some true) ∧ r.lasers[1]? = some (some true) ∧ m = r.mount .two)

/-- The rows are made for the images with the track of the solution and the given position on the vehicle. -/
def PlacedWith (k : PoseMakers α I P) (e : Estimate) (m : α) (images : List I) (rows : List (I × Option P)) : Prop :=
  match e with
  | .ekf => rows = k.update m images
  | e => k.interp e m images = .ok rows

/-- The file of the images of a camera in one solution: named after the solution and the camera, with rows made from that solution at the place of the
camera. -/
def OwnFile (r : ImageRun α I) (k : PoseMakers α I P) (s : CamSlot) (f : ImageFile I P) : Prop :=
  ∃ n m, SlotName r s n ∧ f.name = Estimate.tag f.folder ++ n ∧ SlotMount r s m ∧ PlacedWith k f.folder m (r.images s) f.rows

/-- The additional file of the images of the laser at the place of the DVL. -/
def AtDvlFile (r : ImageRun α I) (k : PoseMakers α I P) (f : ImageFile I P) : Prop :=
  f.folder = .ekf ∧ (∃ n, SlotName r .three n ∧ f.name = Estimate.tag .ekf ++ n ++ "_at_dvl".toList) ∧ f.rows = k.atDvl (r.images .three)

/-- Poses are made for every image. -/
def AlwaysPlaces (k : PoseMakers α I P) : Prop :=
  (∀ e m l rows, k.interp e m l = .ok rows → ∀ p ∈ rows, p.2 ≠ none) ∧ (∀ m l, ∀ p ∈ k.update m l, p.2 ≠ none) ∧ ∀ l, ∀ p ∈ k.atDvl l, p.2 ≠ none

/-- Full property: every row of the files has a pose. -/
def EveryRowPlaced : Prop :=
  ∀ (r : ImageRun ℕ ℕ) (k : PoseMakers ℕ ℕ ℕ) (fs : List (ImageFile ℕ ℕ)), AlwaysPlaces k → imageFiles r k = .ok fs → ∀ f ∈ fs, ∀ p ∈ f.rows, p.2 ≠ none

/-- Full property: the images of the laser go by the name of the camera that records them. -/
def LaserCameraNamed : Prop :=
  ∀ (r : ImageRun ℕ ℕ) (k : PoseMakers ℕ ℕ ℕ) (fs : List (ImageFile ℕ ℕ)) (i : ℕ) (n : Text), r.format = "biocam" → r.names.Nodup → r.lasers.length = r.names.length →
    r.lasers[i]? = some (some true) → (∀ j, j ≠ i → r.lasers[j]? ≠ some (some true)) → r.names[i]? = some n →
    imageFiles r k = .ok fs → ∀ f ∈ fs, (f.rows.map Prod.fst = r.images .three ∧ ∀ s, s ≠ .three → f.rows.map Prod.fst ≠ r.images s) → n <:+: f.name

end Oplab.Spec
