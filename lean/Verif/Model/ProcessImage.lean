import Verif.Model.Images
import Verif.Model.Attenuation
import Verif.Model.CalFiles

/-!
Model of `process_correction` and `process_image` of /repo/src/correct_images/corrector.py (L1239-1425): which
corrections are applied to an image, with which parameters and in which order.  Images are lists of pixels, row by
row, with one value (grey) or three.  Images are read and written with imageio, so that the first channel of a file
is red.  OpenCV's conversion of Bayer images and its resampling are parameters.  The writing of files and the list of
files are in `Correct.lean`.
-/

namespace Oplab

/-- An image in memory: two axes, or three axes with three channels. (corrector.py L1319) -/
inductive Img (α : Type) where
  | grey (px : List α)
  | colour (px : List (V3 α))

/-- Numpy arithmetic between an image and arrays of the same shape, elementwise: `f channel pixel value`.
(attenuation.py L55-78, pixel_stat.py L40-47) -/
def Img.mapAt {α β : Type} (f : ℕ → ℕ → α → β) : Img α → Img β
  | .grey px => .grey (px.mapIdx fun k v => f 0 k v)
  | .colour px => .colour (px.mapIdx fun k v => ⟨f 0 k v.x, f 1 k v.y, f 2 k v.z⟩)

/-- `image.flatten()`. (gamma.py L26) -/
def Img.values {α : Type} : Img α → List α
  | .grey px => px
  | .colour px => px.flatMap fun v => [v.x, v.y, v.z]

/-- What parse has stored for a channel of a pixel: the parameters of the attenuation, the gain, and mean and deviation
of the images with and without correction of the attenuation. (corrector.py L1341-1363) -/
structure ChannelStats where
  a : ℝ
  b : ℝ
  c : ℝ
  gain : ℝ
  meanCorrected : ℝ
  stdCorrected : ℝ
  meanRaw : ℝ
  stdRaw : ℝ

/-- Settings and tables of a `Corrector`. `stats channel pixel`; depth maps give a distance for each pixel.
(corrector.py L195-243, L1341-1392) -/
structure CorrSetup where
  method : String
  metric : String
  type : String
  altitudes : List ℝ
  depthMaps : List (ℕ → ℝ)
  stats : ℕ → ℕ → ChannelStats
  brightness : ℝ
  contrast : ℝ
  m0 : V3 ℝ
  m1 : V3 ℝ
  m2 : V3 ℝ
  subtractors : V3 ℝ
  /-- `cv2.cvtColor` for the Bayer patterns, giving red, green and blue (debayer.py L42-49). -/
  cv : BayerCode → List ℕ → List (V3 ℕ)

/-- corrector.py L1325-1340: the distances of image `idx`, one for each pixel, or `none` without a metric. -/
def distanceOf (s : CorrSetup) (idx : ℕ) : Res (Option (ℕ → ℝ)) :=
  if s.metric = "depth_map" then do
    let m ← pyGet s.depthMaps idx
    .ok (some m)
  else if s.metric = "altitude" then
    if (idx : ℤ) > (s.altitudes.length : ℤ) - 1 then .error .quit
    else do
      let a ← pyGet s.altitudes idx
      .ok (some fun _ => a)
  else .ok none

/-- corrector.py L1341-1363: attenuation and normalisation. -/
noncomputable def normaliseImage (s : CorrSetup) (d : Option (ℕ → ℝ)) (im : Img ℝ) : Img ℝ :=
  match d with
  | some dist =>
    (im.mapAt fun ch k v =>
      attenuationCorrect v (dist k) (s.stats ch k).a (s.stats ch k).b (s.stats ch k).c (s.stats ch k).gain).mapAt
        fun ch k v => pixelStat v (s.stats ch k).meanCorrected (s.stats ch k).stdCorrected s.brightness s.contrast
  | none => im.mapAt fun ch k v => pixelStat v (s.stats ch k).meanRaw (s.stats ch k).stdRaw s.brightness s.contrast

/-- `image_rgb[:, :, [0, 1, 2]] = image_rgb[:, :, [2, 1, 0]]` for a pixel. (corrector.py L1374, L1388) -/
def swapChannels {α : Type} (v : V3 α) : V3 α := ⟨v.z, v.y, v.x⟩

/-- corrector.py L1374, L1388 on an image: an image with two axes has no third index. -/
def swapImage {α : Type} : Img α → Res (Img α)
  | .grey _ => .error .indexError
  | .colour px => .ok (.colour (px.map swapChannels))

/-- `corrections.debayer` of an image (debayer.py L17-55): a pattern that is not known ends the program; OpenCV refuses
images that have channels already (an error of its own, here a `ValueError`). -/
noncomputable def debayerImg (s : CorrSetup) (im : Img ℝ) : Res (Img ℝ) := do
  let code ← bayerCode s.type
  match im with
  | .grey px => .ok (.colour ((s.cv code (px.map toUint16)).map fun v => ⟨fromUint16 v.x, fromUint16 v.y, fromUint16 v.z⟩))
  | .colour _ => .error .valueError

/-- corrector.py L1364-1376: the channels after colour correction. -/
noncomputable def colourChannels (s : CorrSetup) (im : Img ℝ) : Res (Img ℝ) :=
  if s.type ≠ "grayscale" ∧ s.type ≠ "rgb" ∧ s.type ≠ "bgr" then debayerImg s im
  else if s.type ≠ "bgr" ∧ s.type ≠ "grayscale" then swapImage im
  else .ok im

/-- corrector.py L1379-1390: the channels before the manual balance. -/
noncomputable def balanceChannels (s : CorrSetup) (im : Img ℝ) : Res (Img ℝ) :=
  if s.type ≠ "grayscale" ∧ s.type ≠ "rgb" ∧ s.type ≠ "bgr" then debayerImg s im
  else if s.type ≠ "bgr" then swapImage im
  else .ok im

/-- `corrections.manual_balance` of an image. (manual_balance.py L36-57) -/
def balanceImage (s : CorrSetup) : Img ℝ → Img ℝ
  | .grey px => .grey (px.map fun v => manualBalanceGrey s.m0 s.subtractors v)
  | .colour px => .colour (px.map fun v => manualBalance s.m0 s.m1 s.m2 s.subtractors v)

/-- `corrections.gamma_correct` of an image. (gamma.py L25-34) -/
noncomputable def gammaImage (im : Img ℝ) : Img ℝ := im.mapAt fun _ _ v => gammaPixel (gammaDark im.values) v

/-- corrector.py L1309-1407 `process_image` up to the writing of the file: `remap` is the correction of the distortion, if
it is done. Another method leaves `image_rgb` at `None`, which cannot be multiplied. -/
noncomputable def processImage (s : CorrSetup) (remap : Option (Img ℝ → Img ℝ)) (idx : ℕ) (im : Img ℝ) : Res (Img ℕ) :=
  let undist := fun (i : Img ℝ) => match remap with
    | some f => f i
    | none => i
  if s.method = "colour_correction" then do
    let d ← distanceOf s idx
    let rgb ← colourChannels s (normaliseImage s d im)
    .ok ((gammaImage (undist rgb)).mapAt fun _ _ v => toUint8 v)
  else if s.method = "manual_balance" then do
    let rgb ← balanceChannels s im
    .ok ((undist (balanceImage s rgb)).mapAt fun _ _ v => toUint8 v)
  else .error .typeError

/-- corrector.py L1244-1246: the calibration file that is looked for, as the names of the folders and the file.
`processed` is the processed folder of the dive. -/
def undistortFile (processed : List String) (camera : String) : List String :=
  processed.dropLast ++ ["calibration", "mono" ++ camera ++ ".yaml"]

/-- corrector.py L1243-1253, L1395-1398: whether and how the distortion is corrected. `files` gives the maps of the
calibrations that exist. -/
def chooseRemap {F : Type} (requested : Bool) (files : List String → Option F) (processed : List String) (camera : String) :
    Option F :=
  if requested then files (undistortFile processed camera) else none

/-- corrector.py L1239-1275: all images of a run, in the order of the list. The processes that share the work do not
influence each other; the first error is reported. -/
noncomputable def processAll (s : CorrSetup) (requested : Bool) (files : List String → Option (Img ℝ → Img ℝ))
    (processed : List String) (camera : String) (images : List (Img ℝ)) : Res (List (Img ℕ)) :=
  (images.mapIdx fun idx im => processImage s (chooseRemap requested files processed camera) idx im).mapM id

end Oplab
