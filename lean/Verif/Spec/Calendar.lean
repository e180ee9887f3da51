import Verif.Model.Time

/-! The Gregorian calendar as a list of rules, independent of the ordinal arithmetic of the model. -/

namespace Oplab.Spec

/-- Every fourth year is a leap year, except centuries not divisible by 400. -/
def Leap (y : Nat) : Prop := if y % 100 = 0 then y % 400 = 0 else y % 4 = 0

instance (y : Nat) : Decidable (Leap y) := by unfold Leap; infer_instance

/-- Thirty days hath September, April, June and November. -/
def monthLength (y m : Nat) : Nat :=
  if m = 2 then (if Leap y then 29 else 28)
  else if m = 4 ∨ m = 6 ∨ m = 9 ∨ m = 11 then 30 else 31

/-- The day after a date. -/
def nextDay : Nat × Nat × Nat → Nat × Nat × Nat
  | (y, m, d) =>
    if d < monthLength y m then (y, m, d + 1)
    else if m < 12 then (y, m + 1, 1)
    else (y + 1, 1, 1)

/-- A valid calendar date and time of day in years 1 to 9999. -/
def ValidDate (c : DateTime) : Prop :=
  (1 ≤ c.year ∧ c.year ≤ 9999) ∧ (1 ≤ c.month ∧ c.month ≤ 12) ∧
  (1 ≤ c.day ∧ c.day ≤ monthLength c.year c.month) ∧
  c.hour ≤ 23 ∧ c.minute ≤ 59 ∧ c.second ≤ 59 ∧ c.us ≤ 999999

/-- `a` is before `b` on the calendar. -/
def Before (a b : DateTime) : Prop :=
  a.year < b.year ∨ a.year = b.year ∧ (a.month < b.month ∨ a.month = b.month ∧ (a.day < b.day ∨ a.day = b.day ∧
    (a.hour < b.hour ∨ a.hour = b.hour ∧ (a.minute < b.minute ∨ a.minute = b.minute ∧
      (a.second < b.second ∨ a.second = b.second ∧ a.us < b.us)))))

/-- Print a file name according to a pattern: each pattern letter takes the next character of its field, all
other positions get arbitrary filler characters. -/
def render (filler : Nat → Char) : (Char → List Char) → List Char → List Char
  | _, [] => []
  | field, f :: fmt =>
    match field f with
    | c :: cs => c :: render filler (fun g => if g = f then cs else field g) fmt
    | [] => filler fmt.length :: render filler field fmt

/-- The fields of a date: `YYYY`, `MM`, `DD`, `hh`, `mm`, `ss`, and as many digits of milli- and microseconds
as the pattern has letters for. -/
def dateFields (c : DateTime) (ms us nf nu : Nat) : Char → List Char
  | 'Y' => padDigits 4 c.year
  | 'M' => padDigits 2 c.month
  | 'D' => padDigits 2 c.day
  | 'h' => padDigits 2 c.hour
  | 'm' => padDigits 2 c.minute
  | 's' => padDigits 2 c.second
  | 'f' => padDigits nf ms
  | 'u' => padDigits nu us
  | _ => []

end Oplab.Spec
