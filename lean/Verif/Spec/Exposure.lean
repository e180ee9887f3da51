import Verif.Spec.Brightness

/-!
# Images taken with another exposure

Another exposure multiplies all intensities by a factor, another offset of the sensor adds a constant. Everything here is about one channel of one
pixel.
-/

namespace Oplab.Spec

open Oplab

/-- An intensity recorded with another gain and offset. -/
def exposed (gain offset v : ℝ) : ℝ := gain * v + offset

/-- What correct_images makes of the intensity `v`, with the metric `uniform`, after parsing images with the intensities `values`. -/
noncomputable def uniformValue (values : List ℝ) (brightness contrast v : ℝ) : Res ℝ := do
  let r ← runningMeanStd false values
  .ok (pixelStat v r.1 (Real.sqrt r.2) brightness contrast)

/-- With a metric of distance, the corrected images are the same for another exposure. -/
def ExposureFree : Prop :=
  ∀ (s : ColourParse) (alts values : List ℝ) (st st' : ChannelStats) (brightness contrast gain : ℝ), 0 < gain →
    (∀ v ∈ values, 0 ≤ v ∧ exposed gain 0 v ≤ 1) → alts.length = values.length →
    parsePixel s alts values = .ok (some st) → parsePixel s alts (values.map (exposed gain 0)) = .ok (some st') →
    normalisedValues st' brightness contrast alts (values.map (exposed gain 0)) = normalisedValues st brightness contrast alts values

end Oplab.Spec
