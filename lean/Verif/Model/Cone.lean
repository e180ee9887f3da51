import Verif.Model.Laser

/-!
Model of /repo/src/auv_cal/cone_fitting.py (without the optimiser and the plots) and of `image_triangulation` of
/repo/src/auv_cal/plane_fitting.py.
-/

namespace Oplab
open Real

/-- `a / norm(a)`. (cone_fitting.py L25-26, L64-66) -/
noncomputable def unit3 (a : V3 ℝ) : V3 ℝ := ⟨a.x / norm3 a, a.y / norm3 a, a.z / norm3 a⟩

/-- cone_fitting.py L16-37 `rotation_matrix`, applied to the vector `x`. -/
noncomputable def rotAxis (axis : V3 ℝ) (theta : ℝ) (x : V3 ℝ) : V3 ℝ :=
  let k : V3 ℝ := ⟨axis.x / sqrt (dot3 axis axis), axis.y / sqrt (dot3 axis axis), axis.z / sqrt (dot3 axis axis)⟩
  let a := cos (theta / 2)
  let b := -k.x * sin (theta / 2)
  let c := -k.y * sin (theta / 2)
  let d := -k.z * sin (theta / 2)
  ⟨(a * a + b * b - c * c - d * d) * x.x + 2 * (b * c + a * d) * x.y + 2 * (b * d - a * c) * x.z,
   2 * (b * c - a * d) * x.x + (a * a + c * c - b * b - d * d) * x.y + 2 * (c * d + a * b) * x.z,
   2 * (b * d + a * c) * x.x + 2 * (c * d - a * b) * x.y + (a * a + d * d - b * b - c * c) * x.z⟩

/-- cone_fitting.py L117-132 `_from_coeffs`: the axis. -/
noncomputable def coneAxis (axis : V3 ℝ) : V3 ℝ :=
  let u := unit3 axis
  if u.x < 0 then ⟨u.x * -1, u.y * -1, u.z * -1⟩ else u

/-- cone_fitting.py L74-114 `_distance`; the product of the transposed basis and `w` is only needed in its last entry. -/
noncomputable def coneDistance (point apex axis : V3 ℝ) (theta : ℝ) : ℝ :=
  let w0 := diff3 point apex
  if norm3 w0 = 0 then 0
  else
    let w := unit3 w0
    let wxv := cross3 w axis
    if norm3 wxv = 0 then norm3 w0 * cos theta
    else
      let n1 := unit3 wxv
      let u := rotAxis n1 (-theta) axis
      let n2 := unit3 (cross3 u n1)
      |dot3 (unit3 n2) w|

/-- What `ray_intersection` returns: no, one or two points, or numbers that are not finite. (cone_fitting.py L199-226) -/
inductive ConeHit where
  | none
  | one (p : V3 ℝ)
  | two (p q : V3 ℝ)
  | notFinite

open Classical in
/-- cone_fitting.py L199-226 `ray_intersection`.  A division by zero is numpy's. -/
noncomputable def coneRay (apex axis : V3 ℝ) (theta : ℝ) (o r : V3 ℝ) : ConeHit :=
  let cos2 := cos theta * cos theta
  let co := diff3 o apex
  let d := unit3 r
  let dv := dot3 d axis
  let cov := dot3 co axis
  let dco := dot3 d co
  let coco := dot3 co co
  let a := dv ^ 2 - cos2
  let b := 2 * (dv * cov - dco * cos2)
  let c := cov ^ 2 - coco * cos2
  let disc := b ^ 2 - 4 * a * c
  if disc < 0 then .none
  else if a = 0 then .notFinite
  else if disc = 0 then .one (addScaled o (-b / (2 * a)) d)
  else .two (addScaled o ((-b - sqrt disc) / (2 * a)) d) (addScaled o ((-b + sqrt disc) / (2 * a)) d)

/-- plane_fitting.py L164-208 `image_triangulation` of a plane: two values are unpacked from a point, which has three, or from
`None`; only without a pixel there is no error.  `width`, `height` in pixels. -/
noncomputable def planeImage (p : PlaneObj) (ray : ℕ → ℕ → V3 ℝ) (o : V3 ℝ) (width height : ℕ) : Res (List (V3 ℝ)) :=
  if width = 0 ∨ height = 0 then .ok []
  else match p.rayIntersection o (ray 0 0) with
    | .none => .error .typeError
    | .some _ => .error .valueError

end Oplab
