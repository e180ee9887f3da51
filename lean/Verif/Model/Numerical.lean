import Verif.Model.Basic
import Mathlib.Algebra.Order.Field.Basic
import Mathlib.Algebra.Order.Floor.Ring
import Mathlib.Data.Rat.Floor
import Mathlib.Algebra.BigOperators.Group.List.Basic

/-!
Model of /repo/src/correct_images/tools/numerical.py. The array operations act on every pixel by itself, so a
stack of images is modelled one pixel at a time: the list of the values of that pixel, in the order of the
images. Values are in an ordered field (float rounding is not modelled); a variance is kept where the code
takes its square root. `none` stands for the NaN of an empty mean.
-/

namespace Oplab

section
variable {K : Type} [Field K] [LinearOrder K]

/-- The running state (numerical.py L93-95, L26-29). -/
structure Welford (K : Type) where
  count : ℕ
  mean : K
  mean2 : K

/-- numerical.py L93-95: before the first value. -/
def Welford.init : Welford K := ⟨0, 0, 0⟩

omit [LinearOrder K] in
/-- numerical.py L104-108, L150-156 and L45-47: one value. -/
def Welford.step (s : Welford K) (v : K) : Welford K :=
  let c := s.count + 1
  let m := s.mean + (v - s.mean) / (c : K)
  ⟨c, m, s.mean2 + (v - s.mean) * (v - m)⟩

/-- numerical.py L102-103 (`skip` = "is zero") and L37-43 (`skip` = "is above the clipping limit"): a skipped
value is replaced by the current mean, and still counted. -/
def Welford.stepSkip (skip : K → Bool) (s : Welford K) (v : K) : Welford K :=
  s.step (if skip v then s.mean else v)

/-- numerical.py L129-159 `mean_std_array` for one pixel: mean and variance. Without images the division by
`n` fails. -/
def meanStdArray (l : List K) : Res (K × K) :=
  let s := l.foldl Welford.step Welford.init
  if l.length = 0 then .error .zeroDivision else .ok (s.mean, s.mean2 / (l.length : K))

/-- numerical.py L102-103: which values `ignore_zeroes` replaces. -/
def skipZero (ignoreZeroes : Bool) (v : K) : Bool := ignoreZeroes && decide (v = 0)

/-- numerical.py L68-111 `running_mean_std` for one pixel: mean and variance. Without files `file_list[0]`
fails; with one image the deviation stays zero. -/
def runningMeanStd (ignoreZeroes : Bool) (l : List K) : Res (K × K) :=
  let s := l.foldl (Welford.stepSkip (skipZero ignoreZeroes)) Welford.init
  if l.length = 0 then .error .indexError
  else .ok (s.mean, if s.count > 1 then s.mean2 / (s.count : K) else 0)

/-- numerical.py L32-47 `RunningMeanStd.compute` for one pixel over a sequence of images. -/
def runnerState (clip : K) (l : List K) : Welford K :=
  l.foldl (Welford.stepSkip fun v => decide (v > clip)) Welford.init

/-- numerical.py L49-55 `RunningMeanStd.mean`: `None` (here `none`) until there are two images. -/
def runnerMean (clip : K) (l : List K) : Option K :=
  let s := runnerState clip l
  if s.count > 1 then some s.mean else none

/-- numerical.py L57-65 `RunningMeanStd.std`, given the square root: the deviation is never below 1e-6. -/
def runnerStd (sqrt : K → K) (clip : K) (l : List K) : Option K :=
  let s := runnerState clip l
  if s.count > 1 then
    let d := sqrt (s.mean2 / (s.count : K))
    some (if d < 1 / 1000000 then 1 / 1000000 else d)
  else none

/-! ## Trimmed mean -/

/-- Python `int(x)`: rounds towards zero. -/
def pyTrunc (q : ℚ) : ℤ := if 0 ≤ q then ⌊q⌋ else ⌈q⌉

/-- One end of a Python slice of a sequence of length `n`. (numerical.py L358-359) -/
def sliceEnd (n : ℕ) (i : ℤ) : ℕ := if i < 0 then (i + n).toNat else min i.toNat n

/-- Python `l[a:b]`. (numerical.py L358-359) -/
def pySlice {α : Type} (l : List α) (a b : ℤ) : List α := (l.take (sliceEnd l.length b)).drop (sliceEnd l.length a)

/-- `np.mean`: NaN on an empty array. (numerical.py L358-359) -/
def npMean (l : List K) : Option K := if l.length = 0 then none else some (l.sum / (l.length : K))

/-- `np.sort`. (numerical.py L355) -/
def npSort (l : List K) : List K := l.mergeSort (fun a b => decide (a ≤ b))

/-- numerical.py L356: `int(len(data) * rate / 2)`. -/
def trimLeft (n : ℕ) (rate : ℚ) : ℤ := pyTrunc (n * rate / 2)
/-- numerical.py L357: `int(len(data) * (1 - rate / 2))`. -/
def trimRight (n : ℕ) (rate : ℚ) : ℤ := pyTrunc (n * (1 - rate / 2))

/-- numerical.py L333-363 `calc_mean_and_std_trimmed`, mean only, on a one-dimensional array. A rate of zero
or less hands a one-dimensional array to `mean_std_array`, whose `data.shape[1]` fails. -/
def trimmed1d (data : List K) (rate : ℚ) : Res (Option K) :=
  if rate ≤ 0 then .error .indexError
  else .ok (npMean (pySlice (npSort data) (trimLeft data.length rate) (trimRight data.length rate)))

/-- numerical.py L333-363 on a two-dimensional array: `np.sort` sorts each row, `len` and the slice are over
the rows, the mean is over all remaining elements. (A rate of zero or less is not reached from
`image_mean_std_trimmed`.) -/
def trimmed2d (rows : List (List K)) (rate : ℚ) : Option K :=
  npMean (pySlice (rows.map npSort) (trimLeft rows.length rate) (trimRight rows.length rate)).flatten

/-- numerical.py L279-330 `image_mean_std_trimmed` for one pixel and channel of a stack with `axes` axes
(4 for colour, 3 for monochrome, /repo/src/correct_images/tools/memmap.py L44-46): the index
`[list(range(n))]` has the shape (1, n), so the pixel's values arrive as one row. A monochrome stack is indexed
with one index too many (numerical.py L321, and L313 for a rate of zero or less). -/
def imageTrimmed (axes : ℕ) (values : List K) (rate : ℚ) : Res (Option K) :=
  if axes = 4 then
    if rate ≤ 0 then do
      let r ← meanStdArray values
      .ok (some r.1)
    else .ok (trimmed2d [values] rate)
  else .error .indexError

/-! ## Median -/

/-- `np.median` of the values of one pixel (numerical.py L114-126): the middle of the sorted values, or the mean
of the two middle ones; NaN without values. -/
def npMedian (l : List K) : Option K :=
  let s := npSort l
  let n := l.length
  if n % 2 = 1 then s[n / 2]?
  else
    match s[n / 2 - 1]?, s[n / 2]? with
    | some a, some b => if n = 0 then none else some ((a + b) / 2)
    | _, _ => none

/-! ## RANSAC mean -/

/-- numerical.py L219-222: the values closer to `mean` than the threshold. -/
def ransacInliers (data : List K) (threshold mean : K) : List K :=
  data.filter fun v => decide (|v - mean| < threshold)

/-- numerical.py L224: the error, a sum of signed differences. -/
def ransacError (inliers : List K) (mean : K) : K := (inliers.map (· - mean)).sum

/-- numerical.py L213-229: one iteration with the sampled values `sample`; `best` is the best error (`none` =
infinity) and the best inliers so far. -/
def ransacStep (data : List K) (threshold : K) (best : Option K × List K) (sample : List K) :
    Option K × List K :=
  let mean := sample.sum / (sample.length : K)
  let inl := ransacInliers data threshold mean
  let err := ransacError inl mean
  match best.1 with
  | none => (some err, inl)
  | some b => if err < b then (some err, inl) else best

/-- numerical.py L191-232 `ransac_mean_std_1d`, mean only, for a sequence of random samples (one per
iteration). `uninit` is the content of `np.empty`. -/
def ransacMean (data : List K) (threshold : K) (uninit : List K) (samples : List (List K)) : Option K :=
  npMean (samples.foldl (ransacStep data threshold) (none, uninit)).2

end

end Oplab
