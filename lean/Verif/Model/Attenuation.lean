import Verif.Model.Images
import Mathlib.Analysis.SpecialFunctions.Log.Basic
import Mathlib.Algebra.Order.Floor.Ring
import Mathlib.Data.List.Infix

/-!
# Attenuation parameters, rescaling, debayering

Models /repo/src/correct_images/tools/curve_fitting.py, corrections/attenuation.py (the computation of parameters for all
pixels), corrections/rescale.py, corrections/debayer.py.  Real numbers, or elements of an ordered field, stand for floats;
`none` stands for a float that is not finite.  The optimiser, OpenCV and PIL are parameters or recorded as operations.
-/

namespace Oplab

/-! ## The curve of one pixel -/

/-- curve_fitting.py L93-94: values that are not finite are removed, from each array separately. -/
def finiteOnly {K : Type} (l : List (Option K)) : List K := l.filterMap id

/-- curve_fitting.py L123-128: the pairs used for the fit. -/
def positivePairs {K : Type} [Zero K] [LT K] [DecidableLT K] (alts ints : List K) : List (K × K) :=
  (alts.zip ints).filter fun p => 0 < p.1 ∧ 0 < p.2

/-- curve_fitting.py L93-128: the pairs used for the fit, from the arrays of the pixel. -/
def fitPairs {K : Type} [Zero K] [LT K] [DecidableLT K] (alts ints : List (Option K)) : List (K × K) :=
  positivePairs (finiteOnly alts) (finiteOnly ints)

/-- Parameters of the curve of a pixel: numbers, or `[inf, -inf, c]` (curve_fitting.py L182-188 when two altitudes are
equal). -/
inductive CurveParams where
  | real (a b c : ℝ)
  | infinite (c : ℝ)

/-- `intensities_filt.min()` (curve_fitting.py L151, L177). -/
noncomputable def leastIntensity (p : ℝ × ℝ) (ps : List (ℝ × ℝ)) : ℝ := (ps.map Prod.snd).foldl min p.2

open Classical in
/-- curve_fitting.py L165-188: the start values for the pairs `p :: ps`. The positions are `int(n * 0.3)` and
`int(n * 0.7)`. The quotient by a zero difference of altitudes is `inf` (then `a` is 0), `nan` or `-inf` (then `a` is
`inf`); the first two are replaced. -/
noncomputable def curveStart (p : ℝ × ℝ) (ps : List (ℝ × ℝ)) : CurveParams :=
  let l := p :: ps
  let q0 := l.getD (3 * l.length / 10) p
  let q1 := l.getD (7 * l.length / 10) p
  let c := leastIntensity p ps * (1 / 2)
  let r := Real.log ((q0.2 - c) / (q1.2 - c))
  let d := q0.1 - q1.1
  if d = 0 then
    if r < 0 then .infinite c else .real 1.01 (-0.01) c
  else
    let b := r / d
    let a := (q1.2 - c) / Real.exp (b * q1.1)
    if a ≤ 0 ∨ b > 0 then .real 1.01 (-0.01) c else .real a b c

/-- curve_fitting.py L190-214: the optimiser is started at the start values with the least intensity as upper bound of `c`;
if it raises `ValueError` the start values are returned. Infinite start values give residuals that are not numbers, which
raises `ValueError`. `opt` is the optimiser: start, pairs, upper bound. -/
noncomputable def curveOptimise (opt : ℝ × ℝ × ℝ → List (ℝ × ℝ) → ℝ → Option (ℝ × ℝ × ℝ)) (p : ℝ × ℝ) (ps : List (ℝ × ℝ)) :
    CurveParams :=
  match curveStart p ps with
  | .infinite c => .infinite c
  | .real a b c =>
    match opt (a, b, c) (p :: ps) (leastIntensity p ps) with
    | some r => .real r.1 r.2.1 r.2.2
    | none => .real a b c

/-- curve_fitting.py L66-214 `curve_fitting`. -/
noncomputable def curveFit (opt : ℝ × ℝ × ℝ → List (ℝ × ℝ) → ℝ → Option (ℝ × ℝ × ℝ)) (alts ints : List (Option ℝ)) : CurveParams :=
  match fitPairs alts ints with
  | [] => .real 1 0 0
  | p :: ps => curveOptimise opt p ps

/-! ## All pixels -/

/-- `reshape` of an image with rows to a vector of pixels (corrector.py L1230-1235). -/
def flatRows {A : Type} (rows : List (List A)) : List A := rows.flatten

/-- `reshape` of a vector of pixels to `h` rows of `w` pixels (attenuation.py L211-214). -/
def unflatRows {A : Type} (h w : ℕ) (v : List A) : List (List A) :=
  (List.range h).map fun y => (v.drop (y * w)).take w

/-- attenuation.py L198-214 for one channel: `distances` and `images` hold for every bin the vector of its pixels (of this
channel); a missing element cannot occur there. -/
def channelParams {D I P : Type} (fit : List (Option D) → List (Option I) → P) (h w : ℕ) (distances : List (List (Option D)))
    (images : List (List (Option I))) : List (List P) :=
  unflatRows h w ((List.range (h * w)).map fun i =>
    fit (distances.map fun b => (b[i]?).join) (images.map fun b => (b[i]?).join))

/-- attenuation.py L154-166: the number of jobs. `available` bytes are free, `images` is the number of bins, the machine has
`count` processors. -/
def jobCount (available channels height width images count : ℕ) : Res ℤ :=
  let required := channels * height * width * 4 * images
  if required = 0 then .error .zeroDivision
  else
    let jobs : ℤ := (available / required : ℕ) * 2
    let cpus : ℤ := (count : ℤ) - 1
    if jobs > cpus then .ok cpus
    else if jobs ≤ 0 then .ok 1
    else .ok jobs

/-- attenuation.py L198 with `joblib.Parallel`: no jobs at all is a `ValueError`. -/
def runJobs (jobs : ℤ) : Res Unit := if jobs = 0 then .error .valueError else .ok ()

/-! ## Rescaling -/

/-- What is done with an image (PIL). -/
inductive ImgOp where
  | crop (left upper right lower : ℤ)
  | resize (width height : ℤ)
  deriving DecidableEq

section
variable {K : Type} [Field K] [LinearOrder K] [FloorRing K]

/-- Python `int()` of a float. -/
def truncInt (x : K) : ℤ := if 0 ≤ x then ⌊x⌋ else ⌈x⌉

/-- `Image.resize`, a `ValueError` for an empty size (rescale.py L69, L71, L88, L94). -/
def resizeTo (w h : ℤ) : Res ImgOp := if w ≤ 0 ∨ h ≤ 0 then .error .valueError else .ok (.resize w h)

/-- rescale.py L43-59: the supported methods. -/
def rescaleMethod (m : String) : Bool := m = "bicubic" ∨ m = "bilinear" ∨ m = "nearest_neighbour" ∨ m = "lanczos"

/-- rescale.py L72-88: the part in the middle is enlarged. -/
def cropMiddle (w h : ℕ) (sx sy : K) : List ImgOp :=
  let cw := truncInt (1 / sx * (w : K))
  let ch := truncInt (1 / sy * (h : K))
  let left := truncInt (((w : ℤ) - cw : ℤ) / 2 : K)
  let upper := truncInt (((h : ℤ) - ch : ℤ) / 2 : K)
  [.crop left upper ((w : ℤ) - left) ((h : ℤ) - upper), .resize w h]

/-- rescale.py L26-97 `rescale`: what is done with an image of `w` by `h` pixels (not empty). -/
def rescaleOps (method : String) (target altitude fx fy : K) (maintain : Bool) (w h : ℕ) : Res (List ImgOp) :=
  let sy := altitude / fy / target
  let sx := altitude / fx / target
  if rescaleMethod method = false then .error .quit
  else if maintain then
    if sy < 1 ∨ sx < 1 then do
      let a ← resizeTo (truncInt ((w : K) * sx)) (truncInt ((h : K) * sy))
      let b ← resizeTo w h
      .ok [a, b]
    else .ok (cropMiddle w h sx sy)
  else do
    let a ← resizeTo (truncInt ((w : K) * sx)) (truncInt ((h : K) * sy))
    .ok [a]

/-- rescale.py L117-124: the altitudes of the rows whose stem is part of the image name. -/
def rescaleAltitudes (stem : List Char → List Char) (rows : List (List Char × K)) (name : List Char) : List K :=
  let trimmed := (rows.map Prod.fst).filter fun p => stem p <:+: name
  (rows.filter fun r => trimmed.contains r.1).map Prod.snd

/-- rescale.py L113-137: one image; `none` if it is skipped. Several altitudes cannot be compared (`ValueError`) or turned
into an integer (`TypeError`). -/
def rescaleImage (stem : List Char → List Char) (rows : List (List Char × K)) (name : List Char) (method : String)
    (target fx fy : K) (maintain : Bool) (w h : ℕ) : Res (Option (List ImgOp)) :=
  match rescaleAltitudes stem rows name with
  | [] => .ok none
  | [a] => (rescaleOps method target a fx fy maintain w h).map some
  | _ => if rescaleMethod method = false then .error .quit else if maintain then .error .valueError else .error .typeError

/-! ## Debayering -/

/-- The conversions of OpenCV that are used (debayer.py L42-49). -/
inductive BayerCode where
  | bg | gb | rg | gr
  deriving DecidableEq

/-- debayer.py L41-51. -/
def bayerCode (pattern : String) : Res BayerCode :=
  if pattern = "rggb" ∨ pattern = "RGGB" then .ok .bg
  else if pattern = "grbg" ∨ pattern = "GRBG" then .ok .gb
  else if pattern = "bggr" ∨ pattern = "BGGR" then .ok .rg
  else if pattern = "gbrg" ∨ pattern = "GBRG" then .ok .gr
  else .error .quit

/-- debayer.py L38-39: one pixel as a 16-bit number. -/
def toUint16 (v : K) : ℕ := ⌊min (max (v * (2 ^ 16 - 1)) 0) (2 ^ 16 - 1)⌋₊

/-- debayer.py L54: one value of the result. -/
def fromUint16 (n : ℕ) : K := (n : K) * (1 / 2 ^ 16)

/-- debayer.py L17-55 `debayer`; `cv` is OpenCV's conversion of a list of pixels. -/
def debayerImage (cv : BayerCode → List ℕ → List (List ℕ)) (pattern : String) (image : Option (List K)) :
    Res (Option (List (List K))) :=
  match image with
  | none => .ok none
  | some px => do
    let code ← bayerCode pattern
    .ok (some ((cv code (px.map toUint16)).map fun p => p.map fromUint16))

end

end Oplab
