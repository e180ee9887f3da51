import Verif.Model.PixelStats
import Verif.Spec.Numerical

/-! # Specification for C247 -/

namespace Oplab.Spec
open Oplab
variable {K : Type} [Field K] [LinearOrder K] [FloorRing K]

/-- A byte that stands for a value from 0 to 1: the values from 0 to 255 in equal steps, the last including 1. -/
def ByteOf (x : K) (b : ℕ) : Prop := b ≤ 255 ∧ (b : K) / 256 ≤ x ∧ (x < ((b : K) + 1) / 256 ∨ b = 255)

/-- Full property: the byte that is written stands for the value. -/
def BytesRight (K : Type) [Field K] [LinearOrder K] [FloorRing K] : Prop := ∀ x : K, 0 ≤ x → x ≤ 1 → ByteOf x (statByte x)

/-- Full property: a pixel that is brighter in the image is not darker in the result. -/
def BrighterStays (K : Type) [Field K] [LinearOrder K] [FloorRing K] : Prop :=
  ∀ (u v mean std : K), 0 < std → u ≤ v → statByte (statPixel u mean std 25 7) ≤ statByte (statPixel v mean std 25 7)

/-- Full property: the statistics used for a pixel are those of its own place: the small statistics enlarged to the size of the image. -/
def StatsInPlace (K : Type) : Prop :=
  ∀ (resize : Resize K) (h w H W : ℕ) (m : Plane2 K) (r c : ℕ), r < H → c < W → enlarged resize h w H W m r c = resize (h, w) (H, W) m r c

omit [FloorRing K] in
/-- The values of one pixel of the images, each reduced to `h` rows and `w` columns, from 0 to 1. -/
def smallValues (resize : Resize K) (h w : ℕ) (ims : List ByteImage) (ch r c : ℕ) : List K :=
  ims.map fun im => resize (im.rows, im.cols) (h, w) (fun r c => (im.value ch r c : K) / 256) r c

/-- What is written for a pixel: its value normalised with the mean and deviation of the small images, resized with rows and columns exchanged. -/
def NormalisedPixel (resize : Resize K) (sqrt : K → K) (ims : List ByteImage) (H W : ℕ) (im im' : ByteImage) (ch r c : ℕ) : Prop :=
  let m := resize (H / 2, W / 2) (W, H) (fun r c => mean (smallValues resize (H / 2) (W / 2) ims ch r c)) c r
  let d := resize (H / 2, W / 2) (W, H) (fun r c => sqrt (variance (smallValues resize (H / 2) (W / 2) ims ch r c))) c r
  im'.value ch r c = statByte (statPixel ((im.value ch r c : K) / 256) m d 25 7)

/-- A way of resizing that leaves what does not depend on the column independent of the column: each row of the result is constant if each row of the
image is, as with all separable ways. -/
def KeepsRows (resize : Resize K) : Prop :=
  ∀ (a b : ℕ × ℕ) (m : Plane2 K), (∀ r c c', m r c = m r c') → ∀ r c c', resize a b m r c = resize a b m r c'

/-- Full property: the images that are given stay as they are. -/
def SourcesKept (K : Type) [Field K] [LinearOrder K] [FloorRing K] : Prop :=
  ∀ (resize : Resize K) (sqrt : K → K) (src out : String) (names sample : List String) (fs : String × String → Option ByteImage) (n : String),
    (pixelStatsRun resize sqrt src out names sample fs).1 (src, n) = fs (src, n)

/-- Full property: every folder of images is corrected. -/
def AnyImages (K : Type) [Field K] [LinearOrder K] [FloorRing K] : Prop :=
  ∀ (resize : Resize K) (sqrt : K → K) (src out : String) (names sample : List String) (fs : String × String → Option ByteImage),
    names ≠ [] → (∀ n ∈ names, fs (src, n) ≠ none) → (pixelStatsRun resize sqrt src out names sample fs).2 = none

end Oplab.Spec
