import Verif.Model.Correct
import Verif.Model.Numerical
import Verif.Model.Attenuation
import Verif.Model.ProcessImage

/-!
# From the images of a dive to the parameters of the colour correction

`generate_attenuation_correction_parameters` and `compute_distance_bin` of /repo/src/correct_images/corrector.py for the distance metric
`altitude`, for one channel of one pixel: all steps act on every channel and pixel by itself (where the parameters of a pixel are stored is in
`Attenuation.lean`, the schedule of the parallel tasks in `Correct.lean`). Random choices and the optimiser are parameters. The tables for the
bins are memory maps of a new file, which are zero before anything is written. Figures are left out.
-/

namespace Oplab

/-- Settings of the computation and what it draws at random. (corrector.py L195-243, L769, L1134-1139) -/
structure ColourParse where
  altMin : ℝ
  altMax : ℝ
  smoothing : String
  /-- axes of a stack of images: 4 for colour, 3 for monochrome (memmap.py L44-46) -/
  axes : ℕ
  /-- the number of images that fit into memory (corrector.py L763-770) -/
  maxBin : ℕ
  /-- `random.sample` (corrector.py L1141) -/
  pick : List ℕ → List ℕ
  /-- the samples of RANSAC (numerical.py L215) -/
  draws : List ℝ → List (List ℝ)
  /-- content of `np.empty` (numerical.py L212) -/
  uninit : List ℝ
  /-- `optimize.least_squares`: start, pairs, upper bound of `c` (curve_fitting.py L191-199) -/
  opt : ℝ × ℝ × ℝ → List (ℝ × ℝ) → ℝ → Option (ℝ × ℝ × ℝ)

/-- The elements of a list at the given positions. (corrector.py L1130, L1145) -/
def valuesAt (l : List ℝ) (idx : List ℕ) : List ℝ := idx.filterMap fun i => l[i]?

/-- corrector.py L1169-1211: one value out of those of the images of a bin. `none` is not a number. -/
noncomputable def smoothBin (s : ColourParse) (values : List ℝ) : Res (Option ℝ) :=
  if s.smoothing = "mean" then do
    let r ← runningMeanStd false values
    .ok (some r.1)
  else if s.smoothing = "mean_trimmed" then imageTrimmed s.axes values (1 / 5)
  else if s.smoothing = "median" then .ok (npMedian values)
  else if s.smoothing = "ransac_mean" then .ok (ransacMean values (1 / 10) s.uninit (s.draws values))
  else .error .valueError

/-- corrector.py L1145-1151: the distance of a bin. The replacement for a mean that is not positive refers to an attribute
that does not exist. -/
noncomputable def binDistance (alts : List ℝ) : Res (Option ℝ) :=
  match npMean alts with
  | none => .error .attributeError
  | some d => if d ≤ 0 then .error .attributeError else .ok (some d)

/-- corrector.py L1116-1235 `compute_distance_bin`: distance and intensity of bin `k`, zero if it has fewer than ten images. -/
noncomputable def binRow (s : ColourParse) (alts values : List ℝ) (k : ℕ) : Res (Option ℝ × Option ℝ) :=
  let members := inBin (histBins s.altMin s.altMax) alts k
  if 10 ≤ members.length then do
    let used := if s.smoothing ≠ "mean" ∧ s.maxBin < members.length then s.pick members else members
    let d ← binDistance (valuesAt alts members)
    let v ← smoothBin s (valuesAt values used)
    .ok (d, v)
  else .ok (some 0, some 0)

/-- corrector.py L850-863: all bins. -/
noncomputable def binTable (s : ColourParse) (alts values : List ℝ) : Res (List (Option ℝ × Option ℝ)) :=
  (List.range ((histBins s.altMin s.altMax).length - 1)).mapM (binRow s alts values)

/-- corrector.py L731-1020 `generate_attenuation_correction_parameters` for the metric `altitude`, for one channel of one pixel: `values` are its
values in all images, `alts` the altitudes of the images. `none` if the parameters are not numbers. Mean and deviation of the raw images are not
computed for this metric (zero here). Fewer than two images have no mean, on which `reshape` fails. -/
noncomputable def parsePixel (s : ColourParse) (alts values : List ℝ) : Res (Option ChannelStats) :=
  if alts.length < 3 then .error .quit
  else do
    let rows ← binTable s alts values
    match curveFit s.opt (rows.map Prod.fst) (rows.map Prod.snd) with
    | .infinite _ => .ok none
    | .real a b c =>
      let gain := correctionGain (alts.sum / alts.length) a b c
      let corrected := List.zipWith (fun v d => attenuationCorrect v d a b c gain) values alts
      match runnerMean (95 / 100) corrected, runnerStd Real.sqrt (95 / 100) corrected with
      | some m, some sd => .ok (some ⟨a, b, c, gain, m, sd, 0, 0⟩)
      | _, _ => .error .attributeError

end Oplab
