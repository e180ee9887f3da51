import Verif.Model.BagLoad

/-!
Which image of a bag belongs to a time.
-/

namespace Oplab.Spec
open Oplab

/-- The image is one of the bags'. -/
def InBags {K : Type} (m : BagImage K) (bags : List (List (BagImage K))) : Prop := ∃ b ∈ bags, m ∈ b

/-- Grey values of an image, as parts of the largest value that its bits can express. -/
def greyValues {K : Type} [Field K] (bits : ℕ) (m : BagImage K) : List K := m.pixels.map fun p : ℕ => (p : K) / 2 ^ bits

/-- Full property: the time that navigation has given to an image of the camera finds this image. -/
def OwnImage (K : Type) [Field K] [LinearOrder K] : Prop :=
  ∀ (bags : List (List (BagImage K))) (m : BagImage K) (offset : K) (bits : ℕ), InBags m bags →
    bagLoad ((m.secs : K) + m.nsecs / 10 ^ 9 - offset) m.topic bags offset bits = some (greyValues bits m)

/-- Each ending of image files with the loader that can read them. -/
def loaderOf (extension : String) : LoaderKind :=
  match extension with
  | "raw" => .xviii
  | "bag" => .rosbag
  | _ => .default

end Oplab.Spec
