import Verif.Model.Time
import Mathlib.Data.List.TakeWhile

/-! What the cameras and tide services write, independent of the parsers. -/

namespace Oplab.Spec

/-- An image as the camera logs it: its number, the date and time, and milliseconds. -/
structure Shot where
  index : List Char
  at_ : DateTime
  ms : Nat

/-- The number has no decimal point; the date is a date; milliseconds are below 1000. -/
def Shot.Valid (s : Shot) : Prop := '.' ∉ s.index ∧ s.at_.ok = true ∧ s.at_.us = 0 ∧ s.ms < 1000

/-- The row of FileTime.csv: number, YYYYMMDD, hhmmss, milliseconds, and any further fields. -/
def Shot.row (s : Shot) (more : List (List Char)) : List (List Char) :=
  s.index :: (padDigits 4 s.at_.year ++ padDigits 2 s.at_.month ++ padDigits 2 s.at_.day)
    :: (padDigits 2 s.at_.hour ++ padDigits 2 s.at_.minute ++ padDigits 2 s.at_.second) :: padDigits 3 s.ms :: more

/-- Universal time of a shot when the camera's clock is `tz` hours ahead and `offset` seconds late. -/
def Shot.utc (s : Shot) (tz offset : ℚ) : ℚ := s.at_.seconds - tz * 3600 + (s.ms : ℚ) / 1000 + offset

/-- The header of FileTime.csv. -/
def fileTimeHeader : List (List Char) := ["index".toList, "date".toList, "time".toList, "ms".toList]

/-- The name of an NTNU stereo image: YYMMDD-hhmmss.ffff and whatever follows. `c.year` counts from 2000. -/
def ntnuName (yy mo d h mi s ffff : Nat) (rest : List Char) : List Char :=
  padDigits 2 yy ++ padDigits 2 mo ++ padDigits 2 d ++ ['-'] ++ padDigits 2 h ++ padDigits 2 mi ++ padDigits 2 s ++ ['.']
    ++ padDigits 4 ffff ++ rest

/-- A line of a tide file: 2022-07-09T00:00:00Z,height,rest. -/
def tideText (c : DateTime) (height rest : List Char) : List Char :=
  padDigits 4 c.year ++ ['-'] ++ padDigits 2 c.month ++ ['-'] ++ padDigits 2 c.day ++ ['T'] ++ padDigits 2 c.hour ++ [':']
    ++ padDigits 2 c.minute ++ [':'] ++ padDigits 2 c.second ++ ['Z'] ++ [','] ++ height ++ [','] ++ rest

end Oplab.Spec
