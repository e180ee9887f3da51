import Verif.Model.AttnPlots
import Mathlib.Logic.ExistsUnique

/-! What figures of attenuation should show. -/

namespace Oplab.Spec

/-- Column `x` is within half a pixel of the diagonal in row `y` of an image of `h` rows and `w` columns. -/
def NearDiagonal (h w x y : Nat) : Prop := 2 * (x * h) ≤ 2 * (y * w) + h ∧ 2 * (y * w) ≤ 2 * (x * h) + h

/-- Every row of every image has one figure. -/
def FigurePerRow : Prop :=
  ∀ channels c h w y : Nat, 0 < w → y < h → ∃! x, x < w ∧ (curveJob channels c h w (y * w + x)).2.2 ≠ none

/-- A picture shows what its name says; with several channels gains and coefficients are those of the first. -/
def PlotFile.shows : PlotFile → PlotData
  | .gain => .gain 0
  | .coeff k => .coeff 0 k
  | .mean c => .mean c
  | .std c => .std c

/-- Every picture shows what its name says. -/
def PlotsRight : Prop :=
  ∀ (attn gains : Bool) (mean std : Option Nat) (f : PlotFile) (d : PlotData), (f, d) ∈ savePlots attn gains mean std →
    d = PlotFile.shows f

/-- Pixel `(y, x)` is number `i` of an image of `w` columns, row by row. -/
def PixelNumber (w i : Nat) (p : Nat × Nat) : Prop := p.2 < w ∧ i = p.1 * w + p.2

/-- The parameters of images of all sizes are saved. -/
def ParametersSaved : Prop :=
  ∀ h w : Nat, 0 < h → 0 < w → AttnFile.parameters ∈ (attnFiles h w).1 ∧ (attnFiles h w).2 = none

/-- A number below 10000 with four decimal digits. -/
def fourDigits (n : Nat) : List Char :=
  [Nat.digitChar (n / 1000), Nat.digitChar (n / 100 % 10), Nat.digitChar (n / 10 % 10), Nat.digitChar (n % 10)]

end Oplab.Spec
