import Verif.Model.Projections

/-! # View volumes, the trackball and random quaternions

Further functions of `/repo/src/auv_nav/tools/transformations.py`. Line numbers refer to that file. Numbers are exact reals. -/

namespace Oplab

/-- transformations.py L579-632 `clip_matrix`. -/
noncomputable def clipMatrix (left right bottom top near far : ℝ) (perspective : Bool) : Res Hom4 :=
  if left ≥ right ∨ bottom ≥ top ∨ near ≥ far then .error .valueError
  else if perspective then
    if near ≤ quatEps then .error .valueError
    else
      let t := 2 * near
      .ok ⟨⟨⟨-t / (right - left), 0, (right + left) / (right - left)⟩, ⟨0, -t / (top - bottom), (top + bottom) / (top - bottom)⟩,
        ⟨0, 0, -(far + near) / (far - near)⟩⟩, ⟨0, 0, t * far / (far - near)⟩, ⟨0, 0, -1⟩, 0⟩
  else
    .ok ⟨⟨⟨2 / (right - left), 0, 0⟩, ⟨0, 2 / (top - bottom), 0⟩, ⟨0, 0, 2 / (far - near)⟩⟩,
      ⟨(right + left) / (left - right), (top + bottom) / (bottom - top), (far + near) / (near - far)⟩, ⟨0, 0, 0⟩, 1⟩

/-- transformations.py L1370-1384 of `random_quaternion`, for the three numbers drawn or given. -/
noncomputable def randomQuaternion (a b c : ℝ) : RosQuat :=
  let r1 := √(1 - a)
  let r2 := √a
  let t1 := Real.pi * 2 * b
  let t2 := Real.pi * 2 * c
  ⟨Real.sin t1 * r1, Real.cos t1 * r1, Real.sin t2 * r2, Real.cos t2 * r2⟩

/-- transformations.py L1518-1533 `arcball_map_to_sphere` (a radius of zero gives inf or nan, which is not modelled). -/
noncomputable def arcballMap (px py cx cy radius : ℝ) : V3 ℝ :=
  let x := (px - cx) / radius
  let y := (cy - py) / radius
  let n := x * x + y * y
  if n > 1 then ⟨x / √n, y / √n, 0 / √n⟩ else ⟨x, y, √(1 - n)⟩

/-- transformations.py L1536-1549 `arcball_constrain_to_axis` (`unit_vector` of zero is nan, here zero). -/
noncomputable def arcballConstrain (point a : V3 ℝ) : V3 ℝ :=
  let v := vecAdd point (vecScale (-vecDot a point) a)
  let n := vecNorm v
  if n > quatEps then
    let v := if v.z < 0 then vecScale (-1) v else v
    ⟨v.x / n, v.y / n, v.z / n⟩
  else if a.z = 1 then ⟨1, 0, 0⟩
  else unitVec ⟨-a.y, a.x, 0⟩

/-- transformations.py L1554-1562 of `arcball_nearest_axis`, from an axis and its value on. -/
noncomputable def arcballNearest (point : V3 ℝ) : Option (V3 ℝ) → ℝ → List (V3 ℝ) → Option (V3 ℝ)
  | best, _, [] => best
  | best, mx, a :: rest =>
    let t := vecDot (arcballConstrain point a) point
    if t > mx then arcballNearest point (some a) t rest else arcballNearest point best mx rest

end Oplab
