import Verif.Model.Numerical

/-! # The script that normalises the brightness of a folder of images

Models /repo/src/scripts/pixel_stats_folder.py. `K` is an ordered field; the deviations take a square root, a parameter. Sampling of the images
is a parameter: `sample` holds the images that are used for the statistics. -/

namespace Oplab
variable {K : Type} [Field K] [LinearOrder K] [FloorRing K]

/-- One channel of an image, by row and column (pixel_stats_folder.py L98-126). -/
abbrev Plane2 (K : Type) := ℕ → ℕ → K

/-- An image: rows, columns, number of channels if the array has a third axis, and the channels with values from 0 to 255
(pixel_stats_folder.py L98-100). -/
structure ByteImage where
  rows : ℕ
  cols : ℕ
  channels : Option ℕ
  value : ℕ → Plane2 ℕ

omit [FloorRing K] in
/-- pixel_stats_folder.py L50-55 `pixel_stat` for one pixel; dividing by a zero deviation is outside the model. -/
def statPixel (v mean std brightness contrast : K) : K := min (max ((v - mean) / std * (contrast / 100) + brightness / 100) 0) 1

/-- pixel_stats_folder.py L124-125: the value times 2^8 as `uint8`. numpy keeps the lower eight bits. -/
def statByte (x : K) : ℕ := ⌊x * 2 ^ 8⌋₊ % 2 ^ 8

omit [LinearOrder K] [FloorRing K] in
/-- The values of an image times 2^-8 (pixel_stats_folder.py L83-84, L98-99). -/
def unitPlane (im : ByteImage) (ch : ℕ) : Plane2 K := fun r c => (im.value ch r c : K) / 2 ^ 8

/-- `cv2.resize`, bicubic: size before, rows and columns after, and the channel (pixel_stats_folder.py L85, L246-255). -/
abbrev Resize (K : Type) := ℕ × ℕ → ℕ × ℕ → Plane2 K → Plane2 K

omit [LinearOrder K] [FloorRing K] in
/-- pixel_stats_folder.py L58-79, L81-86, L234-241: mean and variance of each pixel of the images, each reduced to `h` rows and `w` columns. -/
def folderStats (resize : Resize K) (h w : ℕ) (sample : List ByteImage) (ch : ℕ) (r c : ℕ) : K × K :=
  let l := sample.map fun im => resize (im.rows, im.cols) (h, w) (unitPlane im ch) r c
  let s := l.foldl Welford.step Welford.init
  (s.mean, s.mean2 / (l.length : K))

omit [Field K] [LinearOrder K] [FloorRing K] in
/-- pixel_stats_folder.py L243-255: statistics as large as the images. The array is resized with `(orig_image_height, orig_image_width)` as the size, which
`cv2.resize` takes as columns and rows, and its rows and columns are then exchanged. -/
def enlarged (resize : Resize K) (h w H W : ℕ) (m : Plane2 K) : Plane2 K := fun r c => resize (h, w) (W, H) m c r

/-- pixel_stats_folder.py L89-126 `correct_image`: the values that are written. The shape must have three axes; with a number of channels other
than 3 the whole array is combined with the statistics of one channel, which numpy refuses, unless there is one channel, which the
statistics before refuse (L60); images of another size than the first cannot be combined with them. -/
def correctStats (mean std : ℕ → Plane2 K) (brightness contrast : K) (H W : ℕ) (im : ByteImage) : Res ByteImage :=
  match im.channels with
  | none => .error .valueError
  | some n =>
    if n = 3 ∧ im.rows = H ∧ im.cols = W then
      .ok { im with value := fun ch r c => statByte (statPixel ((im.value ch r c : K) / 2 ^ 8) (mean ch r c) (std ch r c) brightness contrast) }
    else .error .valueError

/-- pixel_stats_folder.py L280-294: the images are read, corrected and written to the folder `out` under their own names; an error ends the run.
Simplified: one after the other; the script uses parallel jobs. `fs` is the files by folder and name. -/
def correctFolder (fix : ByteImage → Res ByteImage) (src out : String) : List String → (String × String → Option ByteImage) →
    (String × String → Option ByteImage) × Option Err
  | [], fs => (fs, none)
  | n :: ns, fs =>
    match fs (src, n) with
    | none => (fs, some .keyError)
    | some im =>
      match fix im with
      | .error e => (fs, some e)
      | .ok im' => correctFolder fix src out ns fun k => if k = (out, n) then some im' else fs k

/-- pixel_stats_folder.py L128-294: the run. `names` is the listing of the images in `src`, `sample` those used for the statistics; the first image
gives the size. Brightness is 25, contrast 7 and the scale 1/2 (L19-25). -/
def pixelStatsRun (resize : Resize K) (sqrt : K → K) (src out : String) (names sample : List String) (fs : String × String → Option ByteImage) :
    (String × String → Option ByteImage) × Option Err :=
  match names with
  | [] => (fs, some .indexError)
  | n :: _ =>
    match fs (src, n) with
    | none => (fs, some .keyError)
    | some im =>
      if im.channels = none then (fs, some .valueError)
      else
        let h := im.rows / 2
        let w := im.cols / 2
        let ims := sample.filterMap fun k => fs (src, k)
        let stats := folderStats resize h w ims
        let mean := fun ch => enlarged resize h w im.rows im.cols fun r c => (stats ch r c).1
        let std := fun ch => enlarged resize h w im.rows im.cols fun r c => sqrt (stats ch r c).2
        correctFolder (correctStats mean std 25 7 im.rows im.cols) src out names fs

end Oplab
