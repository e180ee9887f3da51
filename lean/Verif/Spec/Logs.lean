import Mathlib.Data.Rat.Defs
import Mathlib.Algebra.Field.Rat
import Verif.Model.Parsers

/-! Vocabulary for the properties of log parsers. -/

namespace Oplab.Spec

/-- Value of a list of decimal digits. -/
def intValue : List Nat → Nat
  | [] => 0
  | d :: ds => d * 10 ^ ds.length + intValue ds

/-- Value of the digits after the decimal point. -/
def fracValue : List Nat → ℚ
  | [] => 0
  | d :: ds => (d + fracValue ds) / 10

/-- The number a printed time stamp stands for. -/
def stampValue (s : Stamp) : ℚ := intValue s.ip + fracValue s.fp

/-- A printed time stamp with `n` digits before the point and no leading zero, or the "0.0" of the origin entry. -/
def Stamp.WF (n : Nat) (s : Stamp) : Prop :=
  (∀ d ∈ s.ip, d < 10) ∧ (∀ d ∈ s.fp, d < 10) ∧
  (s.ip.length = n ∧ (∃ d ds, s.ip = d :: ds ∧ d ≠ 0) ∨ s = ⟨[0], [0]⟩)

/-- An RDI ensemble: its time and the lines up to the next ensemble. -/
structure Ensemble (K : Type) where
  t : K
  body : List (RdiLine K)

/-- The lines of an ensemble that are not time stamps. -/
def Ensemble.Proper {K} (e : Ensemble K) : Prop := ∀ l ∈ e.body, ∀ t, l ≠ .ts t

/-- The log of a list of ensembles. -/
def rdiLog {K} (es : List (Ensemble K)) : List (RdiLine K) := es.flatMap fun e => .ts e.t :: e.body

/-- The velocity of an ensemble: the last one marked valid. -/
def Ensemble.velocity {K} (e : Ensemble K) : Option (K × V3 K) :=
  ((e.body.filterMap fun l => match l with | .bi true v => some v | _ => none).getLast?).map fun v => (e.t, v)

/-- The altitude of an ensemble: the last range that follows a valid velocity. -/
def Ensemble.altitude {K} (e : Ensemble K) : Option (K × K) :=
  (((e.body.dropWhile fun l => match l with | .bi true _ => false | _ => true).filterMap
    fun l => match l with | .bd a => some a | _ => none).getLast?).map fun a => (e.t, a)

end Oplab.Spec
