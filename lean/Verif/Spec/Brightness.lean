import Verif.Spec.ColourRun
import Verif.Model.ColourRun

/-!
# Brightness and contrast of the images of a dive

The manual says that `brightness` is the mean and `contrast` the deviation of the intensities over all images, both in per
cent. Everything here is about one channel of one pixel.
-/

namespace Oplab.Spec

open Oplab

/-- The values have the mean and the deviation that the settings ask for. -/
def AsTargeted (brightness contrast : ℝ) (out : List ℝ) : Prop :=
  mean out = brightness / 100 ∧ Real.sqrt (variance out) = contrast / 100

/-- What `process` makes of the values of all images, before the gamma correction, with the parameters found by `parse`. -/
noncomputable def normalisedValues (st : ChannelStats) (brightness contrast : ℝ) (alts values : List ℝ) : List ℝ :=
  List.zipWith (fun v d => colourPixel ⟨st.a, st.b, st.c, st.gain, st.meanCorrected, st.stdCorrected⟩ brightness contrast d v) values alts

/-- What is in the images that `process` writes for a camera with one grey pixel, from 0 to 1. -/
noncomputable def writtenValues (st : ChannelStats) (brightness contrast : ℝ) (alts values : List ℝ) : List ℝ :=
  List.zipWith (fun v d => ((processGrey brightness contrast d
    [(⟨st.a, st.b, st.c, st.gain, st.meanCorrected, st.stdCorrected⟩, v)]).map fun n : ℕ => (n : ℝ) / 255).sum) values alts

/-- C273 without conditions on the settings: for all images of a dive and all settings the mean is the brightness. -/
def BrightnessReached : Prop :=
  ∀ (s : ColourParse) (alts values : List ℝ) (st : ChannelStats) (brightness contrast : ℝ),
    alts.length = values.length → parsePixel s alts values = .ok (some st) →
    (∀ v ∈ List.zipWith (fun v d => attenuationCorrect v d st.a st.b st.c st.gain) values alts, v ≤ 95 / 100) →
    0 ≤ brightness → brightness ≤ 100 → 0 ≤ contrast → contrast ≤ 100 →
    mean (normalisedValues st brightness contrast alts values) = brightness / 100

/-- C273 for the images that are written: their mean is the brightness, to within a hundredth. -/
def BrightnessWritten : Prop :=
  ∀ (s : ColourParse) (alts values : List ℝ) (st : ChannelStats) (brightness contrast : ℝ),
    alts.length = values.length → parsePixel s alts values = .ok (some st) →
    AsTargeted brightness contrast (normalisedValues st brightness contrast alts values) →
    |mean (writtenValues st brightness contrast alts values) - brightness / 100| ≤ 1 / 100

end Oplab.Spec
