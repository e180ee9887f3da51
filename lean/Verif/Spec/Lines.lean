import Mathlib.Algebra.Order.Field.Basic

namespace Oplab.Spec

variable {K : Type} [Field K] [LinearOrder K]

/-- `(t, y)` lies on the straight line through `(t1, y1)` and `(t2, y2)`. -/
def OnLine (t1 y1 t2 y2 t y : K) : Prop := (y - y1) * (t2 - t1) = (y2 - y1) * (t - t1)

/-- Distance between two compass headings in `[0, 360]`, the short way round. -/
def headingDist (a b : K) : K := min |a - b| (360 - |a - b|)

end Oplab.Spec
