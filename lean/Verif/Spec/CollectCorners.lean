import Verif.Model.CollectCorners

/-! # Specification of the views of a calibration -/

namespace Oplab.Spec

variable {I D S K : Type}

/-- The calibration pattern is seen sharp in the image, resized if there is a target size. -/
def SharpView (t : ViewTools I D S K) (target : Option S) (file : String) (d : D) : Prop :=
  ∃ im, t.imread file = some im ∧
    ∃ shown, (target = none → shown = im) ∧ (∀ s, target = some s → shown = t.resize im s) ∧
      t.corners shown = some d ∧ t.sharp shown d = true

/-- The sum of the absolute differences of the parameters of two views. -/
def viewDistance [Field K] [LinearOrder K] (p q : List K) : K := ((p.zip q).map fun x => |x.1 - x.2|).sum

end Oplab.Spec
