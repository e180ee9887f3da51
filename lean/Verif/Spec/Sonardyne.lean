import Mathlib.Algebra.Order.Field.Basic

/-! Vocabulary for the properties of the Sonardyne logs. -/

namespace Oplab.Spec

/-- The line written from a list of values: the values separated by commas. -/
def commaText : List (List Char) → List Char
  | [] => []
  | [x] => x
  | x :: y :: r => x ++ ',' :: commaText (y :: r)

/-- Every comma of a text is followed by a blank. -/
def CommaBlank : List Char → Prop
  | [] => True
  | [c] => c ≠ ','
  | c :: d :: r => (c = ',' → d = ' ') ∧ CommaBlank (d :: r)

/-- A value that a line can carry: it does not begin with a blank, and its commas are followed by blanks. -/
def Writable (f : List Char) : Prop := f.head? ≠ some ' ' ∧ CommaBlank f

/-- The values `fields` separated by the characters `seps`, in order. -/
def sepText : List (List Char) → List Char → List Char
  | x :: xs, s :: ss => x ++ s :: sepText xs ss
  | x :: _, [] => x
  | [], _ => []

variable {K : Type} [LinearOrder K]

/-- `a` is the earliest of the times `ts` at or after `t`, or the last one if all are before `t`. -/
def NextOrLast (ts : List K) (t a : K) : Prop :=
  a ∈ ts ∧ ((t ≤ a ∧ ∀ s ∈ ts, t ≤ s → a ≤ s) ∨ ((∀ s ∈ ts, s < t) ∧ ∀ s ∈ ts, s ≤ a))

/-- `a` is a time of `ts` closest to `t`. -/
def ClosestTo [AddGroup K] (ts : List K) (t a : K) : Prop := a ∈ ts ∧ ∀ s ∈ ts, |a - t| ≤ |s - t|

/-- UTC time of a reading `civil` of a clock set `zone` hours ahead of UTC, to which `correction` seconds have to be added. -/
def utcOf {F : Type} [Field F] (zone correction civil : F) : F := civil - zone * 3600 + correction

end Oplab.Spec
