import Verif.Model.Laser

/-!
Model of `fit_and_save` of /repo/src/auv_cal/laser_calibrator.py: the inliers of the fitted plane, what is computed from them,
and the search for triples of inliers.
-/

namespace Oplab

/-- `np.mean` of a list that is not empty. (laser_calibrator.py L816-818) -/
noncomputable def meanL (l : List ℝ) : ℝ := l.sum / l.length

/-- `np.std` of a list that is not empty. (laser_calibrator.py L823-824) -/
noncomputable def stdL (l : List ℝ) : ℝ := Real.sqrt (meanL (l.map fun x => (x - meanL l) ^ 2))

/-- laser_calibrator.py L821-831: the smallest distance that is allowed between the points of a triple. -/
noncomputable def minDistOf (inliers : List (V3 ℝ)) : ℝ :=
  2 * Real.sqrt (stdL (inliers.map V3.y) ^ 2 + stdL (inliers.map V3.z) ^ 2)

open Classical in
/-- plane_fitting.py L95-100: the inliers of a fitted plane. -/
noncomputable def planeInliers (p : PlaneObj) (threshold : ℝ) (cloud : List (V3 ℝ)) : List (V3 ℝ) :=
  cloud.filter fun q => decide (p.distance q < threshold)

/-- What is written about one laser. (laser_calibrator.py L931-945) -/
structure LaserFit where
  meanXyz : V3 ℝ
  meanPlane : V3 ℝ × ℝ
  planes : List (V3 ℝ × ℝ)

/-- laser_calibrator.py L767-945 `fit_and_save` for the first laser: `p` is the fitted plane, `draws` the triples drawn; `none`
if more draws are needed.  Without inliers the array has one dimension only, and `random.sample` needs three points. -/
noncomputable def fitAndSave (p : PlaneObj) (threshold : ℝ) (cloud : List (V3 ℝ)) (num : ℕ) (draws : List (V3 ℝ × V3 ℝ × V3 ℝ)) :
    Res (Option LaserFit) :=
  let inliers := planeInliers p threshold cloud
  let scale := 1 / p.normal.x
  if inliers.length = 0 then .error .indexError
  else if 0 < num ∧ inliers.length < 3 then .error .valueError
  else .ok ((uncertLoop num (minDistOf inliers) draws []).map fun planes =>
    { meanXyz := ⟨meanL (inliers.map V3.x), meanL (inliers.map V3.y), meanL (inliers.map V3.z)⟩
      meanPlane := (⟨p.normal.x * scale, p.normal.y * scale, p.normal.z * scale⟩, p.offset * scale)
      planes := planes })

end Oplab
