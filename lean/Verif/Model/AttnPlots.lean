import Verif.Model.CsvFiles
import Verif.Model.Basic

/-!
Model of the figures that are saved while attenuation is estimated: /repo/src/correct_images/corrections/attenuation.py
L175-209 (curves of pixels) and L220-311 (`save_attenuation_plots`), and /repo/src/correct_images/corrector.py L866-919,
L1075-1114 (`plot_all_attenuation_curves`).
-/

namespace Oplab

/-- Python's `round` of the quotient of two whole numbers: ties go to the even number. The quotient is exact here.
(attenuation.py L186) -/
def roundQuot (a b : Nat) : Nat :=
  let n := a / b
  let r := a % b
  if 2 * r < b then n else if b < 2 * r then n + 1 else if n % 2 = 0 then n else n + 1

/-- attenuation.py L184-186: the column of the diagonal in row `y`: `round(y / (height / width))`. -/
def diagColumn (h w y : Nat) : Nat := roundQuot (y * w) h

/-- `{n:04}`. (attenuation.py L190) -/
def pad4 (n : Nat) : Text := List.replicate (4 - (Nat.toDigits 10 n).length) '0' ++ Nat.toDigits 10 n

/-- attenuation.py L179-182: the part of a name for the channel. -/
def channelStr (channels c : Nat) : Text := if 1 < channels then 'c' :: '_' :: (Nat.toDigits 10 c ++ ['_']) else []

/-- attenuation.py L190: the name of the figure of a pixel. -/
def curveName (channels c x y : Nat) : Text :=
  "intensities_curve".toList ++ '_' :: (channelStr channels c ++ 'x' :: '_' :: (pad4 x ++ '_' :: 'y' :: '_' ::
    (pad4 y ++ ".png".toList)))

/-- attenuation.py L183-195: the names of figures for the pixels of one channel, row by row; `None` for no figure. -/
def figurePaths (channels c h w : Nat) : List (Option Text) :=
  (List.range h).flatMap fun y => (List.range w).map fun x =>
    if x = diagColumn h w y then some (curveName channels c x y) else none

/-- attenuation.py L199-208: what the fit of pixel `i` is given: column, row and name of the figure. -/
def curveJob (channels c h w i : Nat) : Nat × Nat × Option Text :=
  (i % w, i / w, ((figurePaths channels c h w)[i]?).join)

/-- The pictures of parameters. (attenuation.py L228-311) -/
inductive PlotFile
  | gain
  | coeff (k : Nat)
  | mean (channel : Nat)
  | std (channel : Nat)
  deriving DecidableEq

/-- The arrays that are drawn: gains of a channel, coefficient `k` of a channel, mean and standard deviation of a channel.
(attenuation.py L230-308) -/
inductive PlotData
  | gain (channel : Nat)
  | coeff (channel k : Nat)
  | mean (channel : Nat)
  | std (channel : Nat)
  deriving DecidableEq

/-- attenuation.py L228-234. -/
def gainPlots (gains : Bool) : List (PlotFile × PlotData) := if gains then [(.gain, .gain 0)] else []

/-- attenuation.py L236-256. -/
def coeffPlots (attn : Bool) : List (PlotFile × PlotData) :=
  if attn then [(.coeff 0, .coeff 0 0), (.coeff 1, .coeff 0 1), (.coeff 2, .coeff 0 2)] else []

/-- attenuation.py L258-283, for a number of channels (one for an array without channels). -/
def meanPlots : Option Nat → List (PlotFile × PlotData)
  | none => []
  | some n => [(.mean 0, .mean 0)] ++ (if 1 < n then [(.mean 1, .mean 1)] else []) ++
      (if 2 < n then [(.mean 2, .mean 2)] else [])

/-- attenuation.py L285-311: the second and third picture are drawn from `img_std[:, :, 0]` too. -/
def stdPlots : Option Nat → List (PlotFile × PlotData)
  | none => []
  | some n => [(.std 0, .std 0)] ++ (if 1 < n then [(.std 1, .std 0)] else []) ++
      (if 2 < n then [(.std 2, .std 0)] else [])

/-- attenuation.py L220-311 `save_attenuation_plots`. -/
def savePlots (attn gains : Bool) (mean std : Option Nat) : List (PlotFile × PlotData) :=
  gainPlots gains ++ coeffPlots attn ++ meanPlots mean ++ stdPlots std

/-- `range(0, stop, step)`: the step must not be zero. (corrector.py L1081-1085) -/
def rangeStep (stop step : Nat) : Res (List Nat) :=
  if step = 0 then .error .valueError else .ok ((List.range ((stop + step - 1) / step)).map (· * step))

/-- corrector.py L1081-1099: the pixels, as row and column, whose curves are drawn in the plot of all curves. -/
def curvePixels (h w : Nat) : Res (List (Nat × Nat)) :=
  (rangeStep (h * w) (h * w / 100)).map fun l => l.map fun i => (i / w, i % w)

/-- What is written between the maps of bins and the gains. (corrector.py L866-919) -/
inductive AttnFile
  | imagesMap | distancesMap | curves | parameters | coefficients | gains
  deriving DecidableEq

/-- corrector.py L866-919: the files that are written, in this order, and the error that ends the program, if any. Only the error
of the plot of all curves is represented. -/
def attnFiles (h w : Nat) : List AttnFile × Option Err :=
  match curvePixels h w with
  | .error e => ([.imagesMap, .distancesMap], some e)
  | .ok _ => ([.imagesMap, .distancesMap, .curves, .parameters, .coefficients, .gains], none)

end Oplab
