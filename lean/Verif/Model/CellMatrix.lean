import Verif.Model.Projections

/-! # Cells with three lengths and angles

`orthogonalization_matrix` of `/repo/src/auv_nav/tools/transformations.py`. Line numbers refer to that file. Numbers are exact reals. -/

namespace Oplab

/-- transformations.py L867 `numpy.radians` of a number. -/
noncomputable def radiansOf (d : ℝ) : ℝ := d * Real.pi / 180

/-- transformations.py L850-878 `orthogonalization_matrix`: the upper left part, by its rows. `math.sqrt` (L873) refuses negative numbers. -/
noncomputable def cellMatrix (a b c alpha beta gamma : ℝ) : Res (V3 (V3 ℝ)) :=
  let sina := Real.sin (radiansOf alpha)
  let sinb := Real.sin (radiansOf beta)
  let cosa := Real.cos (radiansOf alpha)
  let cosb := Real.cos (radiansOf beta)
  let cosg := Real.cos (radiansOf gamma)
  let co := (cosa * cosb - cosg) / (sina * sinb)
  if 1 - co * co < 0 then .error .valueError
  else .ok ⟨⟨a * sinb * √(1 - co * co), 0, 0⟩, ⟨-a * sinb * co, b * sina, 0⟩, ⟨a * cosb, b * cosa, c⟩⟩

end Oplab
