import Verif.Model.NocLogs

/-! What the logs of positions and tides hold, independent of the parsers. -/

namespace Oplab.Spec

/-- The instant of a date and time of day with `ms` milliseconds, in a zone `tz` hours ahead of universal time, by a clock that has to be
advanced by `off` seconds. -/
def instantOf (tz off : ℚ) (c : DateTime) (ms : ℕ) : ℚ := (c.seconds : ℚ) + (ms : ℚ) / 1000 - tz * 3600 + off

/-- A line of an NMEA log: the computer's date DD/MM/YYYY, a blank and its time of day, a tab, the telegram: a name, the time of day
hhmmss.mmm and the other fields. -/
def nmeaText (date : DateTime) (clock name : List Char) (c : DateTime) (frac rest : List Char) : List Char :=
  padDigits 2 date.day ++ '/' :: (padDigits 2 date.month ++ '/' :: (padDigits 4 date.year ++ ' ' :: (clock ++ '\t' ::
    (name ++ ',' :: (padDigits 2 c.hour ++ padDigits 2 c.minute ++ padDigits 2 c.second ++ '.' :: (frac ++ ',' :: rest))))))

/-- The telegram of that line. -/
def nmeaTelegram (name : List Char) (c : DateTime) (frac rest : List Char) : List Char :=
  name ++ ',' :: (padDigits 2 c.hour ++ padDigits 2 c.minute ++ padDigits 2 c.second ++ '.' :: (frac ++ ',' :: rest))

/-- What a line of an NMEA log may be: without a telegram, with a telegram of another station, or with one of station `n`, taken at the date
and time `c` and `ms` milliseconds, while the computer had the same date. -/
inductive NmeaKind {K : Type} (parse : List Char → Res (NmeaMsg K)) (n : ℕ) (line : List Char) : Option (DateTime × ℕ × NmeaMsg K) → Prop where
  | plain : '\t' ∉ line → NmeaKind parse n line none
  | other (before telegram : List Char) (m : NmeaMsg K) (w k : ℕ) : line = before ++ '\t' :: telegram → '\t' ∉ before → '\t' ∉ telegram →
      parse telegram = .ok m → 0 < w → k < 10 ^ w → m.station = some (padDigits w k) → k ≠ n → NmeaKind parse n line none
  | fix (c : DateTime) (ms : ℕ) (clock name rest : List Char) (m : NmeaMsg K) (w : ℕ) : c.ok = true → c.us = 0 → ms < 1000 →
      line = nmeaText c clock name c (padDigits 3 ms) rest → '\t' ∉ clock → '\t' ∉ name → ',' ∉ name → '\t' ∉ rest →
      parse (nmeaTelegram name c (padDigits 3 ms) rest) = .ok m → 0 < w → n < 10 ^ w → m.station = some (padDigits w n) →
      NmeaKind parse n line (some (c, ms, m))

/-- A number of at most two digits in two columns, with a blank or a zero in front. -/
inductive TwoColumns (n : ℕ) : List Char → Prop where
  | zero : n < 100 → TwoColumns n (padDigits 2 n)
  | blank : n < 10 → TwoColumns n (' ' :: padDigits 1 n)

/-- A line of a table of tides: D/ M/YYYY, two blanks, hh:mm, five characters, the height in six columns, anything. -/
def PolText {K : Type} (toFloat : List Char → Res K) (c : DateTime) (height : K) (line : List Char) : Prop :=
  ∃ d m gap level rest, TwoColumns c.day d ∧ TwoColumns c.month m ∧ gap.length = 5 ∧ level.length = 6 ∧ toFloat level = .ok height ∧
    line = d ++ '/' :: (m ++ '/' :: (padDigits 4 c.year ++ ' ' :: ' ' :: (padDigits 2 c.hour ++ ':' :: (padDigits 2 c.minute ++ (gap ++ (level ++ rest))))))

/-- A coordinate in a dump: degrees with `w` digits, minutes of arc, the letter of the half. -/
structure DumpAngle (K : Type) where
  w : ℕ
  deg : ℕ
  text : List Char
  minutes : K
  hemi : List Char

/-- Its text, as "034-12.345 N". -/
def DumpAngle.line {K : Type} (a : DumpAngle K) : List Char := padDigits a.w a.deg ++ '-' :: (a.text ++ ' ' :: a.hemi)

/-- The text is of this kind and its minutes are the number given. -/
def DumpAngle.Valid {K : Type} (toFloat : List Char → Res K) (a : DumpAngle K) : Prop :=
  0 < a.w ∧ a.deg < 10 ^ a.w ∧ toFloat a.text = .ok a.minutes ∧ (∀ c ∈ a.text, c ≠ ',' ∧ c ≠ ' ' ∧ c ≠ '-') ∧ (∀ c ∈ a.hemi, c ≠ ',' ∧ c ≠ ' ')

/-- Degrees, positive in the half `pos`. -/
def DumpAngle.degrees {K : Type} [Field K] (pos : List Char) (a : DumpAngle K) : K :=
  if a.hemi = pos then (a.deg : K) + a.minutes / 60 else -((a.deg : K) + a.minutes / 60)

/-- A number in a dump, as "Dep=123.4". -/
structure DumpNum (K : Type) where
  name : List Char
  text : List Char
  value : K

/-- Its text. -/
def DumpNum.line {K : Type} (a : DumpNum K) : List Char := a.name ++ '=' :: a.text

/-- The text is of this kind and stands for the number given. -/
def DumpNum.Valid {K : Type} (toFloat : List Char → Res K) (a : DumpNum K) : Prop :=
  toFloat a.text = .ok a.value ∧ a.text ≠ [] ∧ (∀ c ∈ a.name, c ≠ ',' ∧ c ≠ '=') ∧ (∀ c ∈ a.text, c ≠ ',' ∧ c ≠ '=' ∧ isBlank c = false)

/-- Fields joined by commas. -/
def commaJoin : List (List Char) → List Char
  | [] => []
  | [f] => f
  | f :: g :: fs => f ++ ',' :: commaJoin (g :: fs)

/-- Date and time fields of a dump. -/
def dumpDate (c : DateTime) : List Char := padDigits 4 c.year ++ '-' :: (padDigits 2 c.month ++ '-' :: padDigits 2 c.day)
/-- Time of day. -/
def dumpClock (c : DateTime) : List Char := padDigits 2 c.hour ++ ':' :: (padDigits 2 c.minute ++ ':' :: padDigits 2 c.second)

/-- A line of a dump with a position. -/
structure DumpRow (K : Type) where
  at_ : DateTime
  label : List Char
  g3 : List Char
  g4 : List Char
  g5 : List Char
  latitude : DumpAngle K
  longitude : DumpAngle K
  depth : DumpNum K
  lateral : DumpNum K
  bearing : DumpNum K
  distance : DumpNum K

/-- Its fields. -/
def DumpRow.fields {K : Type} (r : DumpRow K) : List (List Char) :=
  [dumpDate r.at_, dumpClock r.at_, r.label, r.g3, r.g4, r.g5, r.latitude.line, r.longitude.line, r.depth.line, r.lateral.line, r.bearing.line,
    r.distance.line]

/-- The texts of the row are of the kinds described. -/
def DumpRow.Valid {K : Type} (toFloat : List Char → Res K) (r : DumpRow K) : Prop :=
  r.at_.ok = true ∧ r.at_.us = 0 ∧ (',' ∉ r.label ∧ ',' ∉ r.g3 ∧ ',' ∉ r.g4 ∧ ',' ∉ r.g5) ∧ r.latitude.Valid toFloat ∧ r.longitude.Valid toFloat ∧
    r.depth.Valid toFloat ∧ r.lateral.Valid toFloat ∧ r.bearing.Valid toFloat ∧ r.distance.Valid toFloat

/-- The values of the row. -/
def DumpRow.fix {K : Type} [Field K] (tz off : ℚ) (r : DumpRow K) : DumpFix K :=
  ⟨instantOf tz off r.at_ 0, r.latitude.degrees ['N'], r.longitude.degrees ['E'], r.depth.value, r.distance.value, r.lateral.value,
    r.bearing.value⟩

/-- What a line of a dump may be: another beacon, the beacon without a position, or the beacon with a position. -/
inductive DumpKind {K : Type} (toFloat : List Char → Res K) (label : List Char) (line : List Char) : Option (DumpRow K) → Prop where
  | other (fs : List (List Char)) (l : List Char) : stripBlanks line = commaJoin fs → (∀ f ∈ fs, ',' ∉ f) → fs[2]? = some l → l ≠ label →
      DumpKind toFloat label line none
  | lost (c : DateTime) (fs : List (List Char)) : c.ok = true → c.us = 0 → stripBlanks line = commaJoin (dumpDate c :: dumpClock c :: label :: fs) →
      (∀ f ∈ label :: fs, ',' ∉ f) → fs[3]? = some [] → DumpKind toFloat label line none
  | fix (r : DumpRow K) : r.Valid toFloat → r.label = label → line = commaJoin r.fields ++ ['\n'] → DumpKind toFloat label line (some r)

end Oplab.Spec
