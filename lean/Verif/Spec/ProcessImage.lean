import Verif.Model.ProcessImage

/-!
What the corrections of an image should do.
-/

namespace Oplab.Spec
open Oplab

/-- The value of a channel (0 red or grey, 1 green, 2 blue) of a pixel. -/
def chan {α : Type} (im : Img α) (ch k : ℕ) : Option α :=
  match im with
  | .grey px => if ch = 0 then px[k]? else none
  | .colour px => (px[k]?).bind fun v => if ch = 0 then some v.x else if ch = 1 then some v.y else if ch = 2 then some v.z else none

/-- A value brought to the configured brightness and contrast (per cent), within 0 and 1. -/
noncomputable def levelled (brightness contrast mean std v : ℝ) : ℝ :=
  min (max ((v - mean) / std * (contrast / 100) + brightness / 100) 0) 1

/-- The light that would be seen at the target distance, for light that fades with the distance as parse has found. -/
noncomputable def unfaded (s : ChannelStats) (distance v : ℝ) : ℝ := s.gain / (s.a * Real.exp (s.b * distance) + s.c) * v

/-- The corrected value before the gamma curve: with a distance the light is corrected for it, without one the
statistics of the images as they are apply. -/
noncomputable def corrected (s : CorrSetup) (d : Option (ℕ → ℝ)) (ch k : ℕ) (v : ℝ) : ℝ :=
  match d with
  | some dist => levelled s.brightness s.contrast (s.stats ch k).meanCorrected (s.stats ch k).stdCorrected
      (unfaded (s.stats ch k) (dist k) v)
  | none => levelled s.brightness s.contrast (s.stats ch k).meanRaw (s.stats ch k).stdRaw v

open Classical in
/-- The gamma curve; `dark` if all values of an image are in its linear part. -/
noncomputable def gammaCurve (dark : Prop) (v : ℝ) : ℝ :=
  if dark then 12.92 * v else 1.055 * v ^ (1 / 1.5 : ℝ) - 0.055

/-- A value from 0 to 1 as one of the integers from 0 to 255. -/
noncomputable def eightBit (v : ℝ) : ℕ := ⌊min (max (v * 255) 0) 255⌋₊

/-- The distances of the image with this index. -/
def DistanceOf (s : CorrSetup) (idx : ℕ) (d : Option (ℕ → ℝ)) : Prop :=
  (s.metric = "depth_map" ∧ ∃ m, s.depthMaps[idx]? = some m ∧ d = some m) ∨
    (s.metric = "altitude" ∧ ∃ a, s.altitudes[idx]? = some a ∧ d = some fun _ => a) ∨
    (s.metric ≠ "depth_map" ∧ s.metric ≠ "altitude" ∧ d = none)

/-- Full property: a manual balance that changes nothing (unit gains, nothing subtracted) leaves red, green and blue of
images in colour where they are, up to the rounding to 8 bits. -/
def KeepsColours : Prop :=
  ∀ (s : CorrSetup) (idx : ℕ) (px : List (V3 ℝ)), s.method = "manual_balance" → (s.type = "rgb" ∨ s.type = "bgr") →
    s.m0 = ⟨1, 0, 0⟩ → s.m1 = ⟨0, 1, 0⟩ → s.m2 = ⟨0, 0, 1⟩ → s.subtractors = ⟨0, 0, 0⟩ →
    ∃ out, processImage s none idx (.colour px) = .ok out ∧
      ∀ ch k, chan out ch k = (chan (.colour px) ch k).map eightBit

/-- Full property: if the correction of the distortion is requested and a calibration of the camera, named as `auv_cal`
names it, is in the folder of calibrations, this calibration is used. -/
def UndistortsWhenCalibrated : Prop :=
  ∀ (F : Type) (files : List String → Option F) (processed : List String) (camera : String) (f : F),
    files (processed.dropLast ++ ["calibration", "mono_" ++ camera ++ ".yaml"]) = some f →
      chooseRemap true files processed camera = some f

end Oplab.Spec
