import Mathlib.Data.Rat.Defs
import Verif.Model.Basic

namespace Oplab

/-! ## Calendar -/

/-- Gregorian leap years (CPython `datetime._is_leap`, used by /repo/src/auv_nav/tools/time_conversions.py L27
through `datetime`). -/
def isLeap (y : Nat) : Bool := y % 4 = 0 ∧ (y % 100 ≠ 0 ∨ y % 400 = 0)

/-- Days in a month (CPython `datetime._days_in_month`); 0 outside 1..12. (called through time_conversions.py L17-31) -/
def daysInMonth (y m : Nat) : Nat :=
  match m with
  | 1 => 31 | 2 => if isLeap y then 29 else 28 | 3 => 31 | 4 => 30 | 5 => 31 | 6 => 30
  | 7 => 31 | 8 => 31 | 9 => 30 | 10 => 31 | 11 => 30 | 12 => 31
  | _ => 0

/-- Days before year `y` (CPython `datetime._days_before_year`). (called through time_conversions.py L17-31) -/
def daysBeforeYear (y : Nat) : Nat :=
  (y - 1) * 365 + (y - 1) / 4 - (y - 1) / 100 + (y - 1) / 400

/-- Days before month `m` (CPython `datetime._days_before_month`). (called through time_conversions.py L17-31) -/
def daysBeforeMonth (y m : Nat) : Nat :=
  (match m with
    | 1 => 0 | 2 => 31 | 3 => 59 | 4 => 90 | 5 => 120 | 6 => 151
    | 7 => 181 | 8 => 212 | 9 => 243 | 10 => 273 | 11 => 304 | _ => 334)
  + (if 2 < m ∧ isLeap y then 1 else 0)

/-- Proleptic Gregorian ordinal, 1 January of year 1 is 1 (CPython `datetime._ymd2ord`).
(called through time_conversions.py L17-31) -/
def ymd2ord (y m d : Nat) : Nat := daysBeforeYear y + daysBeforeMonth y m + d

/-- A calendar date and time with microseconds, as passed to `datetime(...)`. -/
structure DateTime where
  year : Nat
  month : Nat
  day : Nat
  hour : Nat
  minute : Nat
  second : Nat
  us : Nat
  deriving DecidableEq, Repr

/-- The argument checks of Python's `datetime` constructor (ValueError otherwise). (time_conversions.py L17-31) -/
def DateTime.ok (c : DateTime) : Bool :=
  1 ≤ c.year ∧ c.year ≤ 9999 ∧ 1 ≤ c.month ∧ c.month ≤ 12 ∧ 1 ≤ c.day ∧ c.day ≤ daysInMonth c.year c.month
  ∧ c.hour < 24 ∧ c.minute < 60 ∧ c.second < 60 ∧ c.us < 1000000

/-- Whole seconds since 1 January 1970 (`calendar.timegm`, `datetime.timestamp` of a UTC time).
(time_conversions.py L17-31) -/
def DateTime.seconds (c : DateTime) : Int :=
  ((ymd2ord c.year c.month c.day : Int) - 719163) * 86400 + c.hour * 3600 + c.minute * 60 + c.second

/-- /repo/src/auv_nav/tools/time_conversions.py L17-31 `date_time_to_epoch`. Exact rationals: the rounding of
`timedelta(hours=…)` to microseconds and of the returned float is not modelled, nor the
OverflowError for dates pushed out of years 1..9999 by the offset. -/
def dateTimeToEpoch (c : DateTime) (tzHours : ℚ) : Res ℚ :=
  if c.ok then .ok ((c.seconds : ℚ) + (c.us : ℚ) / 1000000 - tzHours * 3600)
  else .error .valueError

/-- CPython `datetime._ord2ymd` (same result as C `gmtime`, called by time_conversions.py L79): date of an
ordinal, from the 400/100/4/1-year cycle decomposition. The month is searched from January. -/
def ord2ymd (n : Nat) : Nat × Nat × Nat :=
  let n := n - 1
  let n400 := n / 146097
  let n := n % 146097
  let n100 := n / 36524
  let n := n % 36524
  let n4 := n / 1461
  let n := n % 1461
  let n1 := n / 365
  let r := n % 365
  let y := n400 * 400 + n100 * 100 + n4 * 4 + n1 + 1
  if n1 = 4 ∨ n100 = 4 then (y - 1, 12, 31)
  else
    let rec month (fuel m r : Nat) : Nat × Nat :=
      match fuel with
      | 0 => (m, r + 1)
      | fuel + 1 => if r < daysInMonth y m then (m, r + 1) else month fuel (m + 1) (r - daysInMonth y m)
    let (m, d) := month 11 1 r
    (y, m, d)

/-- `time.gmtime` of a non-negative whole epoch second. (time_conversions.py L78-79) -/
def gmtime (e : Nat) : DateTime :=
  let ymd := ord2ymd (719163 + e / 86400)
  let s := e % 86400
  ⟨ymd.1, ymd.2.1, ymd.2.2, s / 3600, s % 3600 / 60, s % 60, 0⟩

/-! ## Decimal text -/

/-- Python `int(text)` for a text of ASCII digits; anything else is `ValueError`. (Python also accepts signs,
surrounding blanks, underscores and non-ASCII digits: not modelled.) -/
def pyInt (cs : List Char) : Res Nat :=
  if cs = [] then .error .valueError
  else if cs.all Char.isDigit then .ok (cs.foldl (fun n c => n * 10 + (c.toNat - 48)) 0)
  else .error .valueError

/-- Zero-padded decimal with `w` digits, as printed by `%Y`, `%m`, ... (time_conversions.py L78-79) -/
def padDigits : Nat → Nat → List Char
  | 0, _ => []
  | w + 1, n => padDigits w (n / 10) ++ [Char.ofNat (48 + n % 10)]

/-- time_conversions.py L78-79 `epoch_to_datetime`: `"%Y%m%d%H%M%S"` of `gmtime` (non-negative epochs,
fraction dropped). -/
def epochToDatetime (e : Nat) : List Char :=
  let c := gmtime e
  padDigits 4 c.year ++ padDigits 2 c.month ++ padDigits 2 c.day ++ padDigits 2 c.hour
    ++ padDigits 2 c.minute ++ padDigits 2 c.second

/-- Python slice `s[a:b]`. (time_conversions.py L58-67) -/
def slice (s : List Char) (a b : Nat) : List Char := (s.take b).drop a

/-- time_conversions.py L58-67 `string_to_epoch`. -/
def stringToEpoch (s : List Char) : Res ℚ := do
  let yyyy ← pyInt (slice s 0 4)
  let mm ← pyInt (slice s 4 6)
  let dd ← pyInt (slice s 6 8)
  let hours ← pyInt (slice s 8 10)
  let mins ← pyInt (slice s 10 12)
  let secs ← pyInt (slice s 12 14)
  dateTimeToEpoch ⟨yyyy, mm, dd, hours, mins, secs, 0⟩ 0

/-! ## Time zones -/

/-- A timezone entry of a YAML file. -/
inductive TzValue where
  | str (s : String)
  | num (q : ℚ)
  | other

/-- time_conversions.py L82-103 `read_timezone`. An unknown string leaves the result variable unbound. -/
def readTimezone : TzValue → Res ℚ
  | .str s =>
    if s = "utc" ∨ s = "UTC" then .ok 0
    else if s = "cet" ∨ s = "CET" then .ok 0
    else if s = "jst" ∨ s = "JST" then .ok 9
    else if s = "bst" ∨ s = "BST" then .ok 1
    else .error .unboundLocal
  | .num q => .ok q
  | .other => .error .typeError

/-- /repo/src/oplab/mission.py L47-67 `TimeZoneEntry.load`: the timezone in hours. `toFloat` is Python
`float(text)` (`none` = ValueError). A non-text, non-number value fails at L69. -/
def missionTimezone (toFloat : String → Option ℚ) : TzValue → Res ℚ
  | .str s =>
    if s = "utc" ∨ s = "UTC" then .ok 0
    else if s = "jst" ∨ s = "JST" then .ok 9
    else if s = "CET" ∨ s = "cet" then .ok 1
    else match toFloat s with
      | some q => .ok q
      | none => .error .quit
  | .num q => .ok q
  | .other => .error .typeError

/-- mission.py L68-71: `offset_s`. -/
def missionOffsetSeconds (toFloat : String → Option ℚ) (tz : TzValue) (timeoffset : ℚ) : Res ℚ := do
  let h ← missionTimezone toFloat tz
  .ok (h * 60 * 60 + timeoffset)

/-! ## Time stamps in file names -/

/-- /repo/src/oplab/filename_to_date.py L67-87: the characters of `name` under the letter `f` of the pattern. -/
def fieldChars (f : Char) (name fmt : List Char) : List Char :=
  ((name.zip fmt).filter fun p => p.2 = f).map Prod.fst

/-- filename_to_date.py L56-142 `string_to_epoch`. `toFloat` is Python `float`, `table` the timestamp
file (`none` when not read; a missing index is a KeyError). Exact rationals. -/
def filenameToEpoch (toFloat : List Char → Option ℚ) (table : Option (Nat → Option ℚ))
    (name fmt : List Char) : Res ℚ :=
  let year := fieldChars 'Y' name fmt
  let month := fieldChars 'M' name fmt
  let day := fieldChars 'D' name fmt
  let hour := fieldChars 'h' name fmt
  let minute := fieldChars 'm' name fmt
  let second := fieldChars 's' name fmt
  let msecond := fieldChars 'f' name fmt
  let usecond := fieldChars 'u' name fmt
  let index := fieldChars 'i' name fmt
  let epoch := fieldChars 'e' name fmt
  if index = [] ∧ epoch = [] then
    if year.length ≠ 4 then .error .assertion
    else if month.length ≠ 2 then .error .assertion
    else if day.length ≠ 2 then .error .assertion
    else if hour.length ≠ 2 then .error .assertion
    else if ¬ minute.length ≤ 2 then .error .assertion
    else if ¬ second.length ≤ 2 then .error .assertion
    else if ¬ msecond.length ≤ 3 then .error .assertion
    else if ¬ usecond.length ≤ 3 then .error .assertion
    else do
      let msecond := if msecond = [] then ['0'] else msecond
      let usecond := if usecond = [] then ['0'] else usecond
      let ms ← pyInt msecond
      let us ← pyInt usecond
      let microsecond := ms * 1000 + us
      let y ← pyInt year
      let mo ← pyInt month
      let d ← pyInt day
      let h ← pyInt hour
      let mi ← pyInt minute
      let s ← pyInt second
      let date : DateTime := ⟨y, mo, d, h, mi, s, microsecond⟩
      if date.ok then .ok ((date.seconds : ℚ) + (microsecond : ℚ) / 1000000)
      else .error .valueError
  else if epoch ≠ [] then
    match toFloat epoch with
    | some q => .ok q
    | none => .error .valueError
  else
    match table with
    | none => .error .quit
    | some t => do
      let i ← pyInt index
      match t i with
      | some q => .ok q
      | none => .error .keyError

end Oplab
