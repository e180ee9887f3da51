import Verif.Model.Laser
import Mathlib.Algebra.Order.Round

/-! # Camera models

`/repo/src/oplab/camera_models.py`. Line numbers refer to this file. OpenCV's distortion and its inverse, and the last right
singular vector, are parameters. Floats are real numbers. -/

namespace Oplab

/-- camera_models.py L23-45 `MonoCamera`: what is used here. -/
structure MonoCam where
  fx : ℝ
  fy : ℝ
  cx : ℝ
  cy : ℝ
  R : Matrix (Fin 3) (Fin 3) ℝ
  P : Matrix (Fin 3) (Fin 4) ℝ
  width : ℕ
  height : ℕ

/-- camera_models.py L169-176 `return_valid`. -/
noncomputable def returnValid (m : MonoCam) (p : ℝ × ℝ) : Option (ℝ × ℝ) :=
  if (p.1 > 0 ∧ p.1 < m.width) ∧ (p.2 > 0 ∧ p.2 < m.height) then some p else none

/-- camera_models.py L323-328: the pixel of a point. A division by zero gives infinity or nan, which is not in the image; here it gives 0,
which is not in the image either. -/
noncomputable def projectTo (P : Matrix (Fin 3) (Fin 4) ℝ) (X : V3 ℝ) : ℝ × ℝ :=
  let q := P.mulVec ![X.x, X.y, X.z, 1]
  (q 0 / q 2, q 1 / q 2)

/-- camera_models.py L319-334 `project_point`. -/
noncomputable def projectPoint (l r : MonoCam) (X : V3 ℝ) : Option (ℝ × ℝ) × Option (ℝ × ℝ) :=
  (returnValid l (projectTo l.P X), returnValid r (projectTo r.P X))

/-- camera_models.py L302-312 `triangulate_point`: as `triangulate_lst` with pixels as (column, row). -/
noncomputable def triangulatePoint (svd : Matrix (Fin 6) (Fin 6) ℝ → Fin 6 → ℝ) (l r : MonoCam) (left right : ℝ × ℝ) : V3 ℝ :=
  triangulateLst svd (left.2, left.1) (right.2, right.1) l.P r.P

/-- camera_models.py L178-190 `distort_point`; `project` is `cv2.projectPoints` of a point at distance one. -/
noncomputable def distortPoint (project : ℝ × ℝ → ℝ × ℝ) (m : MonoCam) (p : ℝ × ℝ) : Option (ℝ × ℝ) :=
  returnValid m (project ((p.1 - m.cx) / m.fx, (p.2 - m.cy) / m.fy))

/-- camera_models.py L192-213 `undistort_point`; `undistort` is `cv2.undistortPoints`. -/
noncomputable def undistortPoint (undistort : ℝ × ℝ → ℝ × ℝ) (m : MonoCam) (p : ℝ × ℝ) : Option (ℝ × ℝ) :=
  let n := undistort p
  returnValid m (n.1 * m.fx + m.cx, n.2 * m.fy + m.cy)

/-- camera_models.py L219-221 and L225-226: a matrix applied to a pixel, without the third component of the result. -/
noncomputable def turnPixel (R : Matrix (Fin 3) (Fin 3) ℝ) (p : ℝ × ℝ) : ℝ × ℝ :=
  let q := R.mulVec ![p.1, p.2, 1]
  (q 0, q 1)

/-- camera_models.py L215-222 `undistort_and_rectify_point`. -/
noncomputable def undistortRectify (undistort : ℝ × ℝ → ℝ × ℝ) (m : MonoCam) (p : ℝ × ℝ) : Option (ℝ × ℝ) :=
  (undistortPoint undistort m p).bind fun q => returnValid m (turnPixel m.R q)

/-- camera_models.py L224-227 `unrectify_and_distort_point`. -/
noncomputable def unrectifyDistort (project : ℝ × ℝ → ℝ × ℝ) (m : MonoCam) (p : ℝ × ℝ) : Option (ℝ × ℝ) :=
  distortPoint project m (turnPixel m.R.transpose p)

/-- camera_models.py L336-345 `project_point_undistorted`: indexing `None` is a `TypeError`. -/
noncomputable def projectUndistorted (pl pr : ℝ × ℝ → ℝ × ℝ) (l r : MonoCam) (X : V3 ℝ) :
    Res (Option (ℝ × ℝ) × Option (ℝ × ℝ)) :=
  match projectPoint l r X with
  | (none, _) => .ok (none, none)
  | (some _, none) => .error .typeError
  | (some p, some q) => .ok (unrectifyDistort pl l p, unrectifyDistort pr r q)

/-- camera_models.py L314-317 `triangulate_point_undistorted`. -/
noncomputable def triangulateUndistorted (svd : Matrix (Fin 6) (Fin 6) ℝ → Fin 6 → ℝ) (ul ur : ℝ × ℝ → ℝ × ℝ) (l r : MonoCam)
    (left right : ℝ × ℝ) : Res (V3 ℝ) :=
  match undistortRectify ul l left, undistortRectify ur r right with
  | some p, some q => .ok (triangulatePoint svd l r p q)
  | _, _ => .error .typeError

/-- camera_models.py L40-45: the camera read from a file and downsized; the other elements of the camera matrix are not used. -/
noncomputable def downsizeCamera (ratio : ℝ) (m : MonoCam) : MonoCam where
  fx := m.fx * ratio
  fy := m.fy * ratio
  cx := m.cx * ratio
  cy := m.cy * ratio
  R := m.R
  P := ratio • m.P
  width := ⌊(m.width : ℝ) * ratio⌋₊
  height := ⌊(m.height : ℝ) * ratio⌋₊

/-- camera_models.py L234-247 `StereoCamera.__init__` with the name of a stereo file: the cameras are created without a file, so the ratio is
not used, and then read. -/
def stereoFromFile (_ratio : Option ℝ) (left right : MonoCam) : MonoCam × MonoCam := (left, right)

/-- camera_models.py L234-236 `StereoCamera.__init__` with two monocular files. -/
noncomputable def stereoFromMono (ratio : Option ℝ) (left right : MonoCam) : MonoCam × MonoCam :=
  match ratio with
  | some k => (downsizeCamera k left, downsizeCamera k right)
  | none => (left, right)

/-! ## Files -/

/-- `"%8f"`: six decimals. Python rounds halves to even, here up. -/
def sixDecimals {K : Type} [Field K] [LinearOrder K] [FloorRing K] (x : K) : K := (round (x * 10 ^ 6) : K) / 10 ^ 6

/-- camera_models.py L135-136: the distortion coefficients that are written; the matrix is given by rows. -/
def writtenCoefficients {K : Type} [Field K] [LinearOrder K] [FloorRing K] (d : List (List K)) : Res (List K) :=
  d.mapM fun r => (pyGet r 0).map sixDecimals

/-- camera_models.py L128-136 and L77: OpenCV reads one row of five numbers, and refuses other data. -/
def readCoefficients {K : Type} (data : List K) : Res (List (List K)) :=
  if data.length = 5 then .ok [data] else .error .valueError

end Oplab
