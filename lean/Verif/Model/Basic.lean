/-!
# Shared vocabulary of the model

Python exceptions and `Console.quit` (`sys.exit(1)`, /repo/src/oplab/console.py L125-139)
become values of `Err`.  Indexing a Python list becomes a partial lookup.
-/

namespace Oplab

/-- Ways in which a modelled Python function can fail to return. -/
inductive Err where
  | indexError
  | keyError
  | valueError
  | typeError
  | attributeError
  | zeroDivision
  | unboundLocal
  | assertion
  | linAlg
  | quit
  deriving DecidableEq, Repr

/-- Result of a modelled Python call. -/
abbrev Res (α : Type _) := Except Err α

/-- Python `l[i]` for an integer index: negative indices count from the end,
out-of-range indices raise `IndexError`.
(used wherever the code indexes a list, e.g. /repo/src/auv_nav/tools/interpolate.py L81-113) -/
def pyGet {α : Type _} (l : List α) (i : Int) : Res α :=
  let j := if i < 0 then i + l.length else i
  if j < 0 then .error .indexError
  else match l[j.toNat]? with
    | some a => .ok a
    | none => .error .indexError

/-- A triple of coordinates. -/
structure V3 (K : Type _) where
  x : K
  y : K
  z : K
  deriving DecidableEq, Repr

end Oplab
