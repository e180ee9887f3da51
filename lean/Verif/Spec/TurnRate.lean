import Verif.Model.DeadReckoning
import Verif.Spec.Geometry

/-! Rates of a vehicle in a steady turn. -/

namespace Oplab.Spec
open Oplab

/-- A record of a vehicle that keeps its roll and pitch and turns `w` degrees per second about the vertical; the headings are
in [0, 360). -/
structure SteadyTurn (roll pitch y0 w : ℝ) (os : List (Attitude ℝ)) : Prop where
  roll : ∀ o ∈ os, o.roll = roll
  pitch : ∀ o ∈ os, o.pitch = pitch
  yaw : ∀ o ∈ os, (0 ≤ o.yaw ∧ o.yaw < 360) ∧ ∃ n : ℤ, o.yaw = y0 + w * o.t + 360 * n
  slow : ∀ (i : ℕ) a b, os[i]? = some a → os[i + 1]? = some b → |w * (b.t - a.t)| < 90

/-- `u`, along the axes of a vehicle with attitude `o`, is the rotation by `w` about the vertical. -/
def TurnsAboutVertical (o : Attitude ℝ) (w : ℝ) (u : V3 ℝ) : Prop :=
  rotZ (rad o.yaw) (rotY (rad o.pitch) (rotX (rad o.roll) u)) = ⟨0, 0, w⟩

/-- The rates given to the lever arm correction are those of the vehicle about its own axes. -/
def RatesAboutOwnAxes : Prop :=
  ∀ (roll pitch y0 w : ℝ) (os : List (Attitude ℝ)) (i : ℕ) (o : Attitude ℝ) (u : V3 ℝ), 3 ≤ os.length →
    os.Pairwise (fun a b => a.t < b.t) → SteadyTurn roll pitch y0 w os → os[i]? = some o → computeAngularSpeeds os i = .ok u →
    TurnsAboutVertical o w u

end Oplab.Spec
