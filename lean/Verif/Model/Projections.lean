import Verif.Model.Transforms

/-! # Projections, scaling and shear

The functions of `/repo/src/auv_nav/tools/transformations.py` that make matrices of projections, scaling and shear. Line numbers refer to that
file. Numbers are exact reals. -/

namespace Oplab

/-- A 4 by 4 matrix (transformations.py L195-205): the upper left part by its rows, the last column, the last row, and the element at the lower
right. -/
structure Hom4 where
  m : V3 (V3 ℝ)
  col : V3 ℝ
  row : V3 ℝ
  corner : ℝ

/-- transformations.py L1730 `numpy.dot` of two vectors of three numbers. -/
def vecDot (a b : V3 ℝ) : ℝ := a.x * b.x + a.y * b.y + a.z * b.z

/-- `numpy.outer` of two vectors, times a number. (transformations.py L399, L488, L499, L661) -/
def outer3 (k : ℝ) (a b : V3 ℝ) : V3 (V3 ℝ) :=
  ⟨⟨k * (a.x * b.x), k * (a.x * b.y), k * (a.x * b.z)⟩, ⟨k * (a.y * b.x), k * (a.y * b.y), k * (a.y * b.z)⟩,
    ⟨k * (a.z * b.x), k * (a.z * b.y), k * (a.z * b.z)⟩⟩

/-- The identity times a number. (transformations.py L380-389, L480, L487) -/
def diag3 (k : ℝ) : V3 (V3 ℝ) := ⟨⟨k, 0, 0⟩, ⟨0, k, 0⟩, ⟨0, 0, k⟩⟩

/-- The sum of two vectors. (transformations.py L492) -/
def vecAdd (a b : V3 ℝ) : V3 ℝ := ⟨a.x + b.x, a.y + b.y, a.z + b.z⟩

/-- A vector times a number. (transformations.py L402, L492-495, L500, L504) -/
def vecScale (k : ℝ) (a : V3 ℝ) : V3 ℝ := ⟨k * a.x, k * a.y, k * a.z⟩

/-- `+=` on the upper left part. (transformations.py L661) -/
def addM3 (a b : V3 (V3 ℝ)) : V3 (V3 ℝ) := ⟨vecAdd a.x b.x, vecAdd a.y b.y, vecAdd a.z b.z⟩

/-- `-=` on the upper left part. (transformations.py L399, L488, L491, L499, L503) -/
def subM3 (a b : V3 (V3 ℝ)) : V3 (V3 ℝ) :=
  addM3 a ⟨vecScale (-1) b.x, vecScale (-1) b.y, vecScale (-1) b.z⟩

/-- What a matrix does with a point (x, y, z, 1): three numbers, and the fourth. (transformations.py L472, `numpy.dot`) -/
def homVec (a : Hom4) (v : V3 ℝ) : V3 ℝ × ℝ := (vecAdd (matVec a.m v) a.col, vecDot a.row v + a.corner)

/-- The product of two matrices. (transformations.py L1718-1731 `concatenate_matrices` of two) -/
def homMul (a b : Hom4) : Hom4 :=
  let c : (V3 (V3 ℝ) → V3 ℝ) := fun m => ⟨m.x.x, m.y.x, m.z.x⟩
  let d : (V3 (V3 ℝ) → V3 ℝ) := fun m => ⟨m.x.y, m.y.y, m.z.y⟩
  let e : (V3 (V3 ℝ) → V3 ℝ) := fun m => ⟨m.x.z, m.y.z, m.z.z⟩
  let f : V3 ℝ → ℝ → V3 ℝ := fun r k =>
    ⟨vecDot r (c b.m) + k * b.row.x, vecDot r (d b.m) + k * b.row.y, vecDot r (e b.m) + k * b.row.z⟩
  ⟨⟨f a.m.x a.col.x, f a.m.y a.col.y, f a.m.z a.col.z⟩,
    ⟨vecDot a.m.x b.col + a.col.x * b.corner, vecDot a.m.y b.col + a.col.y * b.corner, vecDot a.m.z b.col + a.col.z * b.corner⟩,
    f a.row a.corner, vecDot a.row b.col + a.corner * b.corner⟩

/-- transformations.py L447-504 `projection_matrix`. -/
noncomputable def projectionMatrix (point normal : V3 ℝ) (direction perspective : Option (V3 ℝ)) (pseudo : Bool) : Hom4 :=
  let n := unitVec normal
  match perspective, direction with
  | some e, _ =>
    let m := subM3 (diag3 (vecDot ⟨e.x - point.x, e.y - point.y, e.z - point.z⟩ n)) (outer3 1 e n)
    if pseudo then ⟨subM3 m (outer3 1 n n), vecScale (vecDot point n) (vecAdd e n), vecScale (-1) n, vecDot e n⟩
    else ⟨m, vecScale (vecDot point n) e, vecScale (-1) n, vecDot e n⟩
  | none, some d =>
    let s := vecDot d n
    ⟨subM3 (diag3 1) (outer3 (1 / s) d n), vecScale (vecDot point n / s) d, ⟨0, 0, 0⟩, 1⟩
  | none, none => ⟨subM3 (diag3 1) (outer3 1 n n), vecScale (vecDot point n) n, ⟨0, 0, 0⟩, 1⟩

/-- transformations.py L364-403 `scale_matrix`. -/
noncomputable def scaleMatrix (factor : ℝ) (origin direction : Option (V3 ℝ)) : Hom4 :=
  match direction with
  | none =>
    ⟨diag3 factor, match origin with | some o => vecScale (1 - factor) o | none => ⟨0, 0, 0⟩, ⟨0, 0, 0⟩, 1⟩
  | some d =>
    let d := unitVec d
    let k := 1 - factor
    ⟨subM3 (diag3 1) (outer3 k d d), match origin with | some o => vecScale (k * vecDot o d) d | none => ⟨0, 0, 0⟩, ⟨0, 0, 0⟩, 1⟩

/-- transformations.py L635-663 `shear_matrix`. -/
noncomputable def shearMatrix (angle : ℝ) (direction point normal : V3 ℝ) : Res Hom4 :=
  let n := unitVec normal
  let d := unitVec direction
  if |vecDot n d| > 1 / 1000000 then .error .valueError
  else .ok ⟨addM3 (diag3 1) (outer3 (Real.tan angle) d n), vecScale (-Real.tan angle * vecDot point n) d, ⟨0, 0, 0⟩, 1⟩

end Oplab
