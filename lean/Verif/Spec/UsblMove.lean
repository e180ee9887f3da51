import Mathlib.Analysis.SpecialFunctions.Trigonometric.Basic
import Verif.Model.Usbl

/-! Specification for C284 and C285: the dive carried elsewhere, and more permissive settings. -/

namespace Oplab.Spec
open Oplab

/-- The same fix in a dive that is turned by `θ` about the vertical, moved by `a` and `b` in the plane and by `d` in depth,
and happens `s` seconds later. Standard deviations stay as they are. -/
noncomputable def carriedFix (θ a b d s : ℝ) (u : UsblFix ℝ) : UsblFix ℝ :=
  ⟨u.t + s, Real.cos θ * u.north - Real.sin θ * u.east + a, Real.sin θ * u.north + Real.cos θ * u.east + b,
    u.northStd, u.eastStd, u.depth + d, u.depthStd⟩

/-- The same depth measurement in that dive. -/
noncomputable def carriedDepth (d s : ℝ) (x : DepthSample ℝ) : DepthSample ℝ := ⟨x.t + s, x.depth + d, x.std⟩

/-- The fixes kept by the filter for a factor `sigma` and a highest speed of the vehicle `vmax`. -/
noncomputable def keptFixes (sigma vmax : ℝ) (ne df : Bool) (us : List (UsblFix ℝ)) (ds : List (DepthSample ℝ)) :
    List (UsblFix ℝ) := (usblFilter (distanceFilter sigma vmax) sigma ne df us ds).2

/-- Full statement of C285 for the factor: a larger factor never loses a fix. -/
def LargerFactorKeeps : Prop :=
  ∀ (vmax s s' : ℝ) (us : List (UsblFix ℝ)) (ds : List (DepthSample ℝ)) (u : UsblFix ℝ), 0 ≤ vmax → 0 ≤ s → s ≤ s' →
    u ∈ keptFixes s vmax true true us ds → u ∈ keptFixes s' vmax true true us ds

end Oplab.Spec
