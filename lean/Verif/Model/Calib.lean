import Verif.Model.Basic
import Mathlib.Analysis.SpecialFunctions.Complex.Arg
import Mathlib.Analysis.SpecialFunctions.Trigonometric.Inverse
import Mathlib.LinearAlgebra.Matrix.Notation

/-!
# Plane fitting and Euler angles of auv_cal

Models /repo/src/auv_cal/ransac.py, plane_fitting.py (class `Plane` without the optimiser and the
plots), euler_angles_from_rotation_matrix.py.  Real numbers stand for floats.
-/

namespace Oplab

/-! ## RANSAC -/

/-- ransac.py L22-27 `fit_plane`: only the first three points are used. `svd` stands for the last right singular vector
of the augmented points with the sign convention of L26-27. -/
def fitPlane {P M : Type} (svd : List P → M) (xyzs : List P) : M := svd (xyzs.take 3)

/-- The state of the loop of `run_ransac`: `best_ic`, and the inliers and number of the latest iteration. -/
structure RansacState (P : Type) where
  best : ℕ
  latest : Option (List P × ℕ)

/-- ransac.py L49-67: the loop. `samples` holds the random sample of each iteration (`max_iterations` of them), `i` the
number of the next iteration. -/
def ransacLoop {P M : Type} (svd : List P → M) (inlier : M → P → Bool) (data : List P) (goal : ℚ) (stop : Bool) :
    List (List P) → ℕ → RansacState P → RansacState P
  | [], _, s => s
  | sample :: rest, i, s =>
    let m := fitPlane svd sample
    let inliers := data.filter (inlier m)
    if s.best < inliers.length then
      if goal < (inliers.length : ℚ) ∧ stop = true then ⟨inliers.length, some (inliers, i)⟩
      else ransacLoop svd inlier data goal stop rest (i + 1) ⟨inliers.length, some (inliers, i)⟩
    else ransacLoop svd inlier data goal stop rest (i + 1) ⟨s.best, some (inliers, i)⟩

/-- ransac.py L34-70 `run_ransac`: plane, inliers and number of the last iteration. Without iterations `inliers` is not
bound. -/
def runRansac {P M : Type} (svd : List P → M) (inlier : M → P → Bool) (data : List P) (goal : ℚ) (stop : Bool)
    (samples : List (List P)) : Res (M × List P × ℕ) :=
  match (ransacLoop svd inlier data goal stop samples 0 ⟨0, none⟩).latest with
  | none => .error .unboundLocal
  | some (inliers, i) => .ok (fitPlane svd inliers, inliers, i)

/-! ## Planes -/

/-- `np.dot` of two vectors of length three. -/
def dot3 (a b : V3 ℝ) : ℝ := a.x * b.x + a.y * b.y + a.z * b.z

/-- `np.linalg.norm`. (/repo/src/auv_cal/plane_fitting.py L26-45) -/
noncomputable def norm3 (a : V3 ℝ) : ℝ := Real.sqrt (dot3 a a)

/-- `a + s * b`. (plane_fitting.py L135-142) -/
def addScaled (a : V3 ℝ) (s : ℝ) (b : V3 ℝ) : V3 ℝ := ⟨a.x + s * b.x, a.y + s * b.y, a.z + s * b.z⟩

/-- A fitted plane. `normal` is a view of the first three entries of `coeffs`, so both are this field. -/
structure PlaneObj where
  normal : V3 ℝ
  offset : ℝ
  point : V3 ℝ

/-- plane_fitting.py L26-40 `from_coeffs`. `self.normal` shares memory with `self.coeffs`: the first in-place division
changes the first three coefficients, the second divides them again. If the normal is zero, or its first entry, NumPy
gives nan or inf; the values of the model mean nothing then. -/
noncomputable def planeOfCoeffs (n : V3 ℝ) (d : ℝ) : PlaneObj :=
  let s := norm3 n
  let m : V3 ℝ := ⟨n.x / s / s, n.y / s / s, n.z / s / s⟩
  let o := d / s
  ⟨m, o, ⟨-((1 * m.y + 10 * m.z + o) / m.x), 1, 10⟩⟩

/-- plane_fitting.py L42-45 `distance`. -/
noncomputable def PlaneObj.distance (p : PlaneObj) (q : V3 ℝ) : ℝ := |dot3 p.normal q + p.offset|

/-- plane_fitting.py L135-142 `ray_intersection`. -/
noncomputable def PlaneObj.rayIntersection (p : PlaneObj) (o r : V3 ℝ) : Option (V3 ℝ) :=
  let u : V3 ℝ := ⟨r.x / norm3 r, r.y / norm3 r, r.z / norm3 r⟩
  if dot3 p.normal u = 0 then none
  else some (addScaled o ((dot3 p.normal p.point - dot3 p.normal o) / dot3 p.normal u) u)

/-- plane_fitting.py L113-133 `fit_non_robust`: `svd` gives the coefficients with the smallest residual, of length 1
and with the sign convention of L129-130. The coefficients returned are the stored ones. -/
noncomputable def fitNonRobust (svd : List (V3 ℝ) → V3 ℝ × ℝ) (points : List (V3 ℝ)) : V3 ℝ × ℝ :=
  let m := svd points
  let p := planeOfCoeffs m.1 m.2
  (p.normal, p.offset)

/-! ## Euler angles -/

/-- euler_angles_from_rotation_matrix.py L8-9 `isclose` with its default tolerances. -/
def isClose (x y : ℝ) : Prop := |x - y| ≤ 1 / 10 ^ 8 + 1 / 10 ^ 5 * |y|

/-- `math.atan2`. (euler_angles_from_rotation_matrix.py L20-29) -/
noncomputable def atan2 (y x : ℝ) : ℝ := Complex.arg ⟨x, y⟩

open Classical in
/-- euler_angles_from_rotation_matrix.py L12-29: psi, theta, phi. -/
noncomputable def eulerAngles (R : Matrix (Fin 3) (Fin 3) ℝ) : ℝ × ℝ × ℝ :=
  if isClose (R 2 0) (-1) then (atan2 (R 0 1) (R 0 2), Real.pi / 2, 0)
  else if isClose (R 2 0) 1 then (atan2 (-R 0 1) (-R 0 2), -(Real.pi / 2), 0)
  else
    let theta := -Real.arcsin (R 2 0)
    let c := Real.cos theta
    (atan2 (R 2 1 / c) (R 2 2 / c), theta, atan2 (R 1 0 / c) (R 0 0 / c))

end Oplab
