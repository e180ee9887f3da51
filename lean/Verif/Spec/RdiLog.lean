import Mathlib.Analysis.SpecialFunctions.Trigonometric.Basic
import Verif.Model.Time
import Verif.Spec.Geometry

/-! What an RDI dvl writes in its format PD6, from the manual: for every ensemble the lines `:SA,pitch,roll,heading`,
`:TS,YYMMDDHHmmsshh,salinity,temperature,depth,sound speed,test`, `:BI,x,y,z,error,status` (mm/s) and `:BD,east,north,up,range,time` (m). -/

namespace Oplab.Spec

/-- A number with the text that is written for it. -/
structure Numeral where
  text : List Char
  value : ℝ

/-- What an ensemble holds; `good` is whether the bottom was tracked. Texts that are not used are `other`. -/
structure Pd6Ensemble where
  date : DateTime
  hundredths : Nat
  pitch : Numeral
  roll : Numeral
  heading : Numeral
  sound : Numeral
  vx : Numeral
  vy : Numeral
  vz : Numeral
  error : Numeral
  good : Bool
  range : Numeral
  other : List Char

/-- The date without the century, and the hundredths of a second. -/
def pd6Date (d : DateTime) (h : Nat) : List Char :=
  padDigits 2 (d.year % 100) ++ (padDigits 2 d.month ++ (padDigits 2 d.day ++ (padDigits 2 d.hour ++ (padDigits 2 d.minute ++
    (padDigits 2 d.second ++ padDigits 2 h)))))

/-- A line: the texts of its fields with commas between them. -/
def pd6Line : List (List Char) → List Char
  | [] => []
  | [x] => x ++ ['\n']
  | x :: xs => x ++ ',' :: pd6Line xs

/-- The lines of an ensemble. -/
def pd6Lines (e : Pd6Ensemble) : List (List Char) :=
  [pd6Line [":SA".toList, e.pitch.text, e.roll.text, e.heading.text],
    pd6Line [":TS".toList, pd6Date e.date e.hundredths, e.other, e.other, e.other, e.sound.text, e.other],
    pd6Line [":BI".toList, e.vx.text, e.vy.text, e.vz.text, e.error.text, if e.good then ['A'] else ['V']],
    pd6Line [":BD".toList, e.other, e.other, e.other, e.range.text, e.other]]

/-- A log. -/
def pd6Log (es : List Pd6Ensemble) : List (List Char) := es.flatMap pd6Lines

/-- The time of an ensemble: universal time, plus the offset of the clock in the mission file. -/
noncomputable def Pd6Ensemble.time (e : Pd6Ensemble) (offset : ℝ) : ℝ := (e.date.seconds : ℝ) + (e.hundredths : ℝ) / 100 + offset

/-- The velocity in the frame of the dvl in m/s. -/
noncomputable def Pd6Ensemble.velocity (e : Pd6Ensemble) : V3 ℝ := ⟨e.vx.value / 1000, e.vy.value / 1000, e.vz.value / 1000⟩

end Oplab.Spec
