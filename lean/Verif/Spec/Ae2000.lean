import Verif.Model.Time
import Verif.Model.Ae2000

/-! What AE2000 logs hold, independent of the parser. -/

namespace Oplab.Spec

/-- A date with time of day and milliseconds as the vehicle writes it: YYYY/MM/DD hh:mm:ss.fff. -/
def aeText (c : DateTime) (ms : Nat) : List Char :=
  padDigits 4 c.year ++ '/' :: (padDigits 2 c.month ++ '/' :: (padDigits 2 c.day ++ ' ' :: (padDigits 2 c.hour ++ ':' ::
    (padDigits 2 c.minute ++ ':' :: (padDigits 2 c.second ++ '.' :: padDigits 3 ms)))))

/-- A row was written at the time `m`, or is the incomplete last one (`none`). -/
def WrittenAt (row : AeRow) (m : Option (DateTime × Nat)) : Prop :=
  row.stamp = m.map (fun p => aeText p.1 p.2) ∧ ∀ p, m = some p → p.1.ok = true ∧ p.1.us = 0 ∧ p.2 < 1000

/-- Seconds since 1970 of a time. -/
noncomputable def aeSeconds (m : DateTime × Nat) : ℝ := (m.1.seconds : ℝ) + (m.2 : ℝ) / 1000

/-- The complete rows of a log with their times, for a clock that is `offset` seconds late. -/
noncomputable def timedRows (offset : ℝ) : List AeRow → List (Option (DateTime × Nat)) → List (ℝ × AeRow)
  | row :: rows, some m :: ms => (aeSeconds m + offset, row) :: timedRows offset rows ms
  | _ :: rows, none :: ms => timedRows offset rows ms
  | _, _ => []

/-- The time of a record. -/
def aeRecordTime : AeRecord → ℝ
  | .velocity t _ _ => t
  | .orientation t _ _ => t
  | .depth t _ _ => t
  | .altitude t _ _ => t

end Oplab.Spec
