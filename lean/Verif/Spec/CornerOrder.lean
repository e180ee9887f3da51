import Mathlib.Algebra.Order.Field.Basic
import Mathlib.Data.List.Range

/-!
# Views of a chessboard

The corners of a chessboard have a row and a column, both counted from the corner of the board that is regarded as the first. A detector lists the
corners row by row, but it cannot know which corner of the board is the first one: it may start anywhere.
-/

namespace Oplab.Spec

/-- Where the corner in a row and a column of a board appears in an image (x to the right, y down). -/
abbrev BoardView (K : Type) := ℕ → ℕ → K × K

/-- The corners listed row by row. -/
def BoardView.listed {K : Type} (s : BoardView K) (rows cols : ℕ) : List (K × K) :=
  (List.range rows).flatMap fun i => (List.range cols).map fun j => s i j

/-- The same view of a board with `rows` rows and `cols` columns, rows and columns being counted from the opposite corner. -/
def BoardView.fromOpposite {K : Type} (s : BoardView K) (rows cols : ℕ) : BoardView K := fun i j => s (rows - 1 - i) (cols - 1 - j)

/-- The same view of a square board, rows and columns being counted from the next corner. -/
def BoardView.fromNext {K : Type} (s : BoardView K) (n : ℕ) : BoardView K := fun i j => s j (n - 1 - i)

/-- The lists a detector can give for a view: a board that is not square fits in two ways, a square one in four. -/
inductive Detects {K : Type} (s : BoardView K) (rows cols : ℕ) : List (K × K) → Prop
  | same : Detects s rows cols (s.listed rows cols)
  | opposite : Detects s rows cols ((s.fromOpposite rows cols).listed rows cols)
  | next : rows = cols → Detects s rows cols ((s.fromNext rows).listed rows cols)
  | previous : rows = cols → Detects s rows cols (((s.fromOpposite rows cols).fromNext rows).listed rows cols)

variable {K : Type} [LinearOrder K]

/-- `a` is higher in the image than `b`. -/
def Above (a b : K × K) : Prop := a.2 < b.2

/-- `a` is farther to the left than `b`. -/
def LeftOf (a b : K × K) : Prop := a.1 < b.1

/-- The board is seen upright: the first corner is above the opposite one; on a square board the first corner is also to the left of the opposite
one, and the end of the first row is above and to the right of the beginning of the last row. -/
def Upright (s : BoardView K) (rows cols : ℕ) : Prop :=
  Above (s 0 0) (s (rows - 1) (cols - 1)) ∧
    (rows = cols → LeftOf (s 0 0) (s (rows - 1) (cols - 1)) ∧ Above (s 0 (cols - 1)) (s (rows - 1) 0) ∧
      LeftOf (s (rows - 1) 0) (s 0 (cols - 1)))

end Oplab.Spec
