import Mathlib.Tactic.Linarith
import Verif.Model.CalText

/-! What it means that a calibration survives being written to a file and read back. -/

namespace Oplab.Spec
open Oplab

/-- `y` is `x` to six decimals. -/
def SixDecimals (x y : ℚ) : Prop := |y - x| ≤ 5 / 10 ^ 7 ∧ ∃ k : ℤ, y = k / 10 ^ 6

/-- `m'` has the given shape and the entries of `m` to six decimals, in the same order. -/
def MatKept (rows cols : ℕ) (m m' : NpMat) : Prop :=
  m'.rows = rows ∧ m'.cols = cols ∧ List.Forall₂ SixDecimals m.data m'.data

/-- The camera that is read is the camera that was written: the same name and image size, the matrices to six decimals, the distortion
coefficients as a row. -/
structure CameraKept (c c' : CalCamera) : Prop where
  width : c'.width = c.width
  height : c'.height = c.height
  name : c'.name = c.name
  K : MatKept 3 3 c.K c'.K
  d : MatKept 1 5 c.d c'.d
  R : MatKept 3 3 c.R c'.R
  P : MatKept 3 4 c.P c'.P

/-- The relative pose that is read is the one that was written. -/
structure ExtrinsicsKept (x x' : CalExtrinsics) : Prop where
  R : MatKept 3 3 x.R x'.R
  T : MatKept 3 1 x.T x'.T
  F : MatKept 3 3 x.F x'.F
  E : MatKept 3 3 x.E x'.E

/-- An array of a given shape. -/
def HasShape (m : NpMat) (rows cols : ℕ) : Prop := m.rows = rows ∧ m.cols = cols ∧ m.data.length = rows * cols

/-- A text that stays on its line and has no blanks around it. -/
def PlainText (t : Text) : Prop := '\n' ∉ t ∧ (∀ c ∈ t.head?, isBlank c = false) ∧ ∀ c ∈ t.getLast?, isBlank c = false

/-- A camera as the monocular calibration leaves it: the distortion coefficients in a column. -/
structure MonoShape (c : CalCamera) : Prop where
  K : HasShape c.K 3 3
  d : HasShape c.d 5 1
  R : HasShape c.R 3 3
  P : HasShape c.P 3 4
  name : PlainText c.name

/-- A camera as the stereo calibration leaves it: the distortion coefficients in a row, as they are read from a file. -/
structure StereoShape (c : CalCamera) : Prop where
  K : HasShape c.K 3 3
  d : HasShape c.d 1 5
  R : HasShape c.R 3 3
  P : HasShape c.P 3 4
  name : PlainText c.name

/-- Shapes of what the stereo calibration computes. -/
structure ExtrinsicsShape (x : CalExtrinsics) : Prop where
  R : HasShape x.R 3 3
  T : HasShape x.T 3 1
  F : HasShape x.F 3 3
  E : HasShape x.E 3 3

/-- The remarks at the end of the file each stay on their line. -/
def OneLineEach (a : CalAbout) : Prop :=
  '\n' ∉ a.date ∧ '\n' ∉ a.user ∧ '\n' ∉ a.host ∧ '\n' ∉ a.version ∧ '\n' ∉ a.images ∧ '\n' ∉ a.error

end Oplab.Spec
