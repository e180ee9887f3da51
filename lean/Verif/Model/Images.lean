import Verif.Model.Basic
import Mathlib.Analysis.SpecialFunctions.Exp
import Mathlib.Analysis.SpecialFunctions.Pow.Real
import Mathlib.Algebra.Order.Floor.Semiring

/-!
Model of the image loaders and corrections of /repo/src/correct_images: `loaders/xviii.py`, `loaders/default.py`,
`corrections/attenuation.py`, `pixel_stat.py`, `gamma.py`, `manual_balance.py`, and the steps of `process_image`
(corrector.py). All of them except the gamma branch act pixel by pixel. Arithmetic is exact (ℚ or ℝ) except
where `roundF32` appears. Debayering and lens distortion (OpenCV) are not modelled.
-/

namespace Oplab

/-! ## XVIII raw images -/

/-- xviii.py L42-44: three bytes to a pixel, `((a & 0xFF) << 16) | ((b & 0xFF) << 8) | (c & 0xFF)`. -/
def pixel24 (a b c : ℕ) : ℕ := ((a &&& 0xFF) <<< 16) ||| ((b &&& 0xFF) <<< 8) ||| (c &&& 0xFF)

/-- xviii.py L41-57: a chunk of twelve bytes to four pixels. A shorter chunk is an out-of-range access (numba
does not check it; an error here). -/
def decodeChunk : List ℕ → Res (List ℕ)
  | [c0, c1, c2, c3, c4, c5, c6, c7, c8, c9, c10, c11] =>
    .ok [pixel24 c3 c2 c1, pixel24 c0 c7 c6, pixel24 c5 c4 c11, pixel24 c10 c9 c8]
  | _ => .error .indexError

/-- xviii.py L37-58: `n` steps of the double loop, each taking the next twelve bytes. The pixels are listed row
by row. -/
def decodeLoop : ℕ → List ℕ → Res (List ℕ)
  | 0, _ => .ok []
  | n + 1, data => do
    let px ← decodeChunk (data.take 12)
    let rest ← decodeLoop n (data.drop 12)
    .ok (px ++ rest)

/-- xviii.py L14-61 `load_xviii_bayer_from_binary`, for a width that is a multiple of four. -/
def decodeXviii (data : List ℕ) (height width : ℕ) : Res (List ℕ) := decodeLoop (height * (width / 4)) data

/-- xviii.py L64-85 `loader`: the decoded pixels, scaled by `2 ** (-src_bit)` (`src_bit` is 18 unless given). -/
def loadXviii (data : List ℕ) (height width srcBit : ℕ) : Res (List ℚ) := do
  let px ← decodeXviii data height width
  .ok (px.map fun (v : ℕ) => (v : ℚ) / 2 ^ srcBit)

/-! ## Default loader -/

/-- Conversion of a natural number to float32 (`astype(np.float32)`): the nearest number with 24 significant
binary digits, ties to even. -/
def roundF32 (n : ℕ) : ℕ :=
  if n < 2 ^ 24 then n
  else
    let s := Nat.log2 n - 23
    let q := n / 2 ^ s
    let r := n % 2 ^ s
    let up := decide (2 * r > 2 ^ s) || (decide (2 * r = 2 ^ s) && decide (q % 2 = 1))
    (if up then q + 1 else q) * 2 ^ s

/-- default.py L53-57: the integer conversion. `readBits` is the width of the stored type. -/
def defaultShift (readBits srcBit v : ℕ) : ℕ := if readBits > srcBit then v >>> (readBits - srcBit) else v

/-- default.py L20-60 `loader` on one pixel `v` of an image stored with `readBits` bits (8, 16, 32 or 64; other
types end the program). Multiplying by a power of two is exact. -/
def loadDefault (readBits srcBit v : ℕ) : Res ℚ :=
  if readBits = 8 ∨ readBits = 16 ∨ readBits = 32 ∨ readBits = 64 then
    .ok ((roundF32 (defaultShift readBits srcBit v) : ℚ) / 2 ^ srcBit)
  else .error .quit

/-! ## Attenuation -/

/-- /repo/src/correct_images/tools/curve_fitting.py L21-39 `exp_curve`. -/
noncomputable def expCurve (x a b c : ℝ) : ℝ := a * Real.exp (b * x) + c

/-- /repo/src/correct_images/corrections/attenuation.py L84-118 `calculate_correction_gains` for one pixel. -/
noncomputable def correctionGain (target a b c : ℝ) : ℝ := a * Real.exp (b * target) + c

/-- attenuation.py L22-79 `attenuation_correct` for one pixel of one channel. -/
noncomputable def attenuationCorrect (img altitude a b c gain : ℝ) : ℝ :=
  gain / (a * Real.exp (b * altitude) + c) * img

/-! ## Normalisation, gamma, output -/

/-- `np.clip(x, lo, hi)`. -/
noncomputable def clip (x lo hi : ℝ) : ℝ := min (max x lo) hi

/-- /repo/src/correct_images/corrections/pixel_stat.py L40-47 `pixel_stat` for one pixel. Division by a zero
deviation (numpy: inf or NaN) is outside the model. -/
noncomputable def pixelStat (v mean std targetMean targetStd : ℝ) : ℝ :=
  clip ((v - mean) / std * (targetStd / 100) + targetMean / 100) 0 1

/-- /repo/src/correct_images/corrections/gamma.py L26-27: whether the whole image is dark. -/
def gammaDark (image : List ℝ) : Prop := ∀ i ∈ image, i < 0.0031308

open Classical in
/-- gamma.py L26-30: one pixel of an image (`dark` = the test on the whole image). -/
noncomputable def gammaPixel (dark : Prop) (v : ℝ) : ℝ :=
  if dark then 12.92 * v else 1.055 * v ^ (1 / 1.5 : ℝ) - 0.055

/-- gamma.py L12-34 `gamma_correct`. -/
noncomputable def gammaCorrect (image : List ℝ) : List ℝ := image.map (gammaPixel (gammaDark image))

/-- corrector.py L1406-1407: `image *= 255; image.clip(0, 255).astype(np.uint8)` (the conversion drops the
fraction). -/
noncomputable def toUint8 (v : ℝ) : ℕ := ⌊clip (v * 255) 0 255⌋₊

/-- What `process_image` knows about one pixel. -/
structure PixelParams where
  a : ℝ
  b : ℝ
  c : ℝ
  gain : ℝ
  mean : ℝ
  std : ℝ

/-- corrector.py L1323-1363: colour correction of one pixel at a distance. -/
noncomputable def colourPixel (p : PixelParams) (brightness contrast altitude v : ℝ) : ℝ :=
  pixelStat (attenuationCorrect v altitude p.a p.b p.c p.gain) p.mean p.std brightness contrast

/-- corrector.py L1308-1407 `process_image` with colour correction, for a grayscale (or `bgr`) image without
lens distortion correction: pixels with their parameters, all at the same altitude. -/
noncomputable def processGrey (brightness contrast altitude : ℝ) (image : List (PixelParams × ℝ)) : List ℕ :=
  (gammaCorrect (image.map fun q => colourPixel q.1 brightness contrast altitude q.2)).map toUint8

/-- /repo/src/correct_images/corrections/manual_balance.py L44-52 for one colour pixel: subtract the offsets,
then multiply with the gain matrix (rows `m0`, `m1`, `m2`). -/
def manualBalance {K : Type} [Ring K] (m0 m1 m2 off v : V3 K) : V3 K :=
  let w : V3 K := ⟨v.x - off.x, v.y - off.y, v.z - off.z⟩
  ⟨m0.x * w.x + m0.y * w.y + m0.z * w.z, m1.x * w.x + m1.y * w.y + m1.z * w.z,
    m2.x * w.x + m2.y * w.y + m2.z * w.z⟩

/-- manual_balance.py L53-55: one monochrome pixel. -/
def manualBalanceGrey {K : Type} [Ring K] (m0 off : V3 K) (v : K) : K := (v - off.x) * m0.x

/-- The camera types `process_image` tells apart. -/
inductive CamType where
  | grayscale | rgb | bgr | bayer
  deriving DecidableEq

/-- corrector.py L1378-1390: the channel handling before the manual balance, on an image with `axes` axes: only
`bgr` images are left alone, everything else that is not debayered is indexed as a colour image, which fails
for two axes. Colour pixels only; a debayered image has three axes. -/
def manualChannels (t : CamType) (axes : ℕ) : Res Unit :=
  match t with
  | .bayer => .ok ()
  | .bgr => .ok ()
  | _ => if axes = 3 then .ok () else .error .indexError

end Oplab
