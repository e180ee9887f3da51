import Verif.Model.Time
import Mathlib.Algebra.Order.Field.Basic

/-! Positions and dates as HyBIS writes them, independent of the parser. -/

namespace Oplab.Spec

/-- Sign of a hemisphere letter. -/
def hemisphereSign (h : Char) : ℚ := if h = 'S' ∨ h = 'W' then -1 else 1

/-- dd/mm/yyyy -/
def slashDate (c : DateTime) : List Char :=
  padDigits 2 c.day ++ ['/'] ++ padDigits 2 c.month ++ ['/'] ++ padDigits 4 c.year

/-- hh:mm:ss -/
def colonTime (c : DateTime) : List Char :=
  padDigits 2 c.hour ++ [':'] ++ padDigits 2 c.minute ++ [':'] ++ padDigits 2 c.second

/-- `y` is the value at time `m` of the straight line through (t1, y1) and (t2, y2). -/
def OnTimeLine {K : Type} [Field K] (m t1 t2 y1 y2 y : K) : Prop := (y - y1) * (t2 - t1) = (y2 - y1) * (m - t1)

end Oplab.Spec
