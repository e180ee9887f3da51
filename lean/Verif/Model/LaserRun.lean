import Verif.Model.LaserUncert

/-!
Model of `cal` of /repo/src/auv_cal/laser_calibrator.py after the detection of the lines: point cloud, sampling and plane of
the first laser.
-/

namespace Oplab

/-- The settings that matter after the detection. (laser_calibrator.py L612-640) -/
structure LaserSettings where
  remap : Bool
  lo : ℝ
  hi : ℝ
  bins : ℕ
  maxPts : ℕ
  threshold : ℝ
  planes : ℕ

/-- `self.sc.left.R.T @ p`. (laser_calibrator.py L749-753) -/
def unrectify (remap : Bool) (R : Matrix (Fin 3) (Fin 3) ℝ) (p : V3 ℝ) : V3 ℝ :=
  if remap then
    ⟨R 0 0 * p.x + R 1 0 * p.y + R 2 0 * p.z, R 0 1 * p.x + R 1 1 * p.y + R 2 1 * p.z, R 0 2 * p.x + R 1 2 * p.y + R 2 2 * p.z⟩
  else p

/-- laser_calibrator.py L1099-1113, L1135-1138: the points of all pairs of images in the axes of the vehicle. -/
noncomputable def laserCloud (svd : Matrix (Fin 6) (Fin 6) ℝ → Fin 6 → ℝ) (P1 P2 : Matrix (Fin 3) (Fin 4) ℝ)
    (R : Matrix (Fin 3) (Fin 3) ℝ) (remap : Bool) (frames : List (List (ℝ × ℝ) × List (ℝ × ℝ))) : List (V3 ℝ) :=
  (frames.flatMap fun f => (pointCloud (fun a b => unrectify remap R (triangulateLst svd a b P1 P2))
    (fun a b => (triangulateLst svd a b P1 P2).z) f.1 f.2).1).map opencvToNed

/-- laser_calibrator.py L1099-1181 with L767-945: what is written about the first laser.  `shuffle` is `random.shuffle`,
`optimise` the result of `least_squares` for the points given, `draw` the triples drawn from the inliers.  The files with
points and the plots are left out. -/
noncomputable def calSheet (svd : Matrix (Fin 6) (Fin 6) ℝ → Fin 6 → ℝ) (P1 P2 : Matrix (Fin 3) (Fin 4) ℝ)
    (R : Matrix (Fin 3) (Fin 3) ℝ) (cfg : LaserSettings) (shuffle : List (V3 ℝ) → List (V3 ℝ))
    (optimise : List (V3 ℝ) → V3 ℝ × ℝ) (draw : List (V3 ℝ) → List (V3 ℝ × V3 ℝ × V3 ℝ))
    (frames : List (List (ℝ × ℝ) × List (ℝ × ℝ))) : Res (Option LaserFit) := do
  let filt ← zStratified V3.z cfg.lo cfg.hi cfg.bins cfg.maxPts (shuffle (laserCloud svd P1 P2 R cfg.remap frames))
  let x := optimise filt
  let p := planeOfCoeffs x.1 x.2
  fitAndSave p cfg.threshold filt cfg.planes (draw (planeInliers p cfg.threshold filt))

end Oplab
