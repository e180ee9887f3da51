import Verif.Model.Basic
import Mathlib.Analysis.SpecialFunctions.Trigonometric.Basic
import Mathlib.Analysis.SpecialFunctions.Pow.Real
import Mathlib.Algebra.Order.Floor.Ring

/-!
Model of /repo/src/scripts/image_acquisition_stats.py.  Numbers are real numbers; the texts that are printed are not
modelled.
-/

namespace Oplab
open Real

/-- The columns of a navigation file that are used. (image_acquisition_stats.py L54-95) -/
structure StatRow where
  time : ℝ
  altitude : ℝ
  northing : ℝ
  easting : ℝ

/-- What is printed. (image_acquisition_stats.py L107-128) -/
structure NavStats where
  count : ℕ
  averageAltitude : ℝ
  distance : ℝ
  surface : ℝ
  bottomTime : ℝ
  imagesDuring : ℕ

/-- The messages with which the script ends without results. (image_acquisition_stats.py L50-72) -/
inductive StatsEnd where
  | noFile | emptyFile | noImages | noneLow

/-- `Series.max()` of a series that is not empty. (image_acquisition_stats.py L74-77) -/
noncomputable def seriesMax : ℝ → List ℝ → ℝ
  | m, [] => m
  | m, t :: ts => seriesMax (if m < t then t else m) ts

/-- `Series.min()` of a series that is not empty. (image_acquisition_stats.py L74-76) -/
noncomputable def seriesMin : ℝ → List ℝ → ℝ
  | m, [] => m
  | m, t :: ts => seriesMin (if t < m then t else m) ts

/-- image_acquisition_stats.py L85-89: distances to the row before; the first row has none. -/
noncomputable def stepDistances : List StatRow → List ℝ
  | a :: b :: rest => ((b.northing - a.northing) ^ 2 + (b.easting - a.easting) ^ 2) ^ (0.5 : ℝ) :: stepDistances (b :: rest)
  | _ => []

/-- image_acquisition_stats.py L90-95: the surface between rows, with the altitude of the later one. -/
noncomputable def stepSurfaces (alpha : ℝ) (rows : List StatRow) : List ℝ :=
  List.zipWith (fun d r => d * r.altitude * tan (alpha / 2 * π / 180) * 2) (stepDistances rows) rows.tail

open Classical in
/-- image_acquisition_stats.py L50-128. -/
noncomputable def acquisitionStats (threshold alpha : ℝ) (start stop : Option ℝ) (file : Option (List StatRow)) : Except StatsEnd NavStats :=
  match file with
  | none => .error .noFile
  | some rows =>
    if rows = [] then .error .emptyFile
    else
      let df := rows.filter fun r => decide (∀ s, start = some s → r.time ≥ s)
      let df := df.filter fun r => decide (∀ s, stop = some s → r.time ≤ s)
      if df = [] then .error .noImages
      else match df.filter fun r => decide (r.altitude < threshold) with
        | [] => .error .noneLow
        | a :: rest =>
          let low := a :: rest
          let tmin := seriesMin a.time (rest.map (·.time))
          let tmax := seriesMax a.time (rest.map (·.time))
          .ok { count := low.length
                averageAltitude := (low.map (·.altitude)).sum / low.length
                distance := (stepDistances low).sum
                surface := (stepSurfaces alpha low).sum
                bottomTime := tmax - tmin
                imagesDuring := (df.filter fun r => decide (r.time ≥ tmin ∧ r.time ≤ tmax)).length }

/-- image_acquisition_stats.py L122-123: hours, minutes and seconds, by `divmod`. -/
noncomputable def hoursMinutes (t : ℝ) : ℤ × ℤ × ℝ :=
  let m := ⌊t / 60⌋
  let s := t - 60 * m
  (m / 60, m % 60, s)

end Oplab
