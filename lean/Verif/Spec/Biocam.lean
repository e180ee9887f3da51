import Verif.Model.Time
import Mathlib.Algebra.Order.Group.Unbundled.Abs
import Mathlib.Algebra.Order.Ring.Rat

/-! Names of BioCam images and what their records hold, independent of the parser. -/

namespace Oplab.Spec

/-- A time with a fraction of `w` decimals, `n` units of the last. -/
structure Moment where
  at_ : DateTime
  w : Nat
  n : Nat

/-- A date of the calendar; the fraction is below one second and has three or six decimals. -/
def Moment.Valid (m : Moment) : Prop := m.at_.ok = true ∧ m.at_.us = 0 ∧ (m.w = 3 ∨ m.w = 6) ∧ m.n < 10 ^ m.w

/-- YYYYMMDD_hhmmss_fraction. -/
def Moment.text (m : Moment) : List Char :=
  (padDigits 4 m.at_.year ++ padDigits 2 m.at_.month ++ padDigits 2 m.at_.day) ++ '_' ::
    ((padDigits 2 m.at_.hour ++ padDigits 2 m.at_.minute ++ padDigits 2 m.at_.second) ++ '_' :: padDigits m.w m.n)

/-- Seconds of universal time for a clock that is `tz` hours ahead and `offset` seconds late. -/
def Moment.utc (m : Moment) (tz offset : ℚ) : ℚ := m.at_.seconds - tz * 3600 + (m.n : ℚ) / 10 ^ m.w + offset

/-- The name of an image: time of the computer, time of the camera, and a rest, separated by underscores. -/
def bioName (pc cam : Moment) (rest : List Char) : List Char := pc.text ++ '_' :: (cam.text ++ '_' :: rest)

/-- The older name: a word, one time, and the ending of the file. -/
def oldBioName (word : List Char) (m : Moment) (ending : List Char) : List Char := word ++ '_' :: (m.text ++ ending)

/-- Pairs of files join images of the two cameras: the left ones in order and each at most once; the right one is nearest in time and less
than 50 ms away; and a left image that has such a partner is in a pair. `t` is the time of a file. -/
structure PairedFiles (t : List Char → ℚ) (left right : List (List Char)) (pairs : List (List Char × List Char)) : Prop where
  order : (pairs.map Prod.fst).Sublist left
  near : ∀ p ∈ pairs, p.2 ∈ right ∧ |t p.1 - t p.2| < 1 / 20 ∧ ∀ q ∈ right, |t p.1 - t p.2| ≤ |t p.1 - t q|
  all : ∀ p ∈ left, (∃ q ∈ right, |t p - t q| < 1 / 20) → p ∈ pairs.map Prod.fst

end Oplab.Spec
