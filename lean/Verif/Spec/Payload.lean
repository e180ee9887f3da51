import Verif.Model.Payload

/-! # Specification for C200 -/

namespace Oplab.Spec
open Oplab

/-- The number in a cell. -/
def PCell.value : PCell → Option ℚ
  | .int n => some n
  | .num x => some x
  | .text _ => none

/-- The same number or the same text. -/
def sameCell (a b : PCell) : Prop := a = b ∨ ∃ x, PCell.value a = some x ∧ PCell.value b = some x

/-- A file with different column names, of which one is the time, and rows of that many cells. -/
structure GoodTable (t : PTable) : Prop where
  different : t.columns.Nodup
  timed : "corrected_timestamp" ∈ t.columns
  full : ∀ r ∈ t.rows, r.length = t.columns.length

/-- Every column of the file is among the data of every measurement. -/
def AllColumnsKept : Prop :=
  ∀ (round : ℤ → ℚ) (dt : ℚ) (t : PTable) (l : List PayloadRec), GoodTable t → parsePayload round dt t = .ok l → ∀ p ∈ l, ∀ c ∈ t.columns, ∃ v, (c, v) ∈ p.data

/-- The time that is written with a measurement is the one its position was computed for. -/
def WrittenTimeIsUsed : Prop :=
  ∀ (round : ℤ → ℚ) (dt : ℚ) (t : PTable) (l : List PayloadRec), (∀ n, round n = n) → GoodTable t → parsePayload round dt t = .ok l →
    ∀ p ∈ l, ∀ v, ("corrected_timestamp", v) ∈ p.data → PCell.value v = some p.epoch

/-- Values are the same numbers or texts as in the file, if numbers of up to 53 bits are converted exactly. -/
def ValuesKept : Prop :=
  ∀ (round : ℤ → ℚ), (∀ n : ℤ, n.natAbs ≤ 2 ^ 53 → round n = n) → ∀ (dt : ℚ) (t : PTable) (l : List PayloadRec), GoodTable t → parsePayload round dt t = .ok l →
    ∀ (i : ℕ) r p, t.rows[i]? = some r → l[i]? = some p → ∀ c v, (c, v) ∈ t.columns.zip r → c ≠ "epoch_timestamp" → ∃ w, (c, w) ∈ p.data ∧ sameCell v w

/-- Each payload of the vehicle is read. -/
def EveryPayloadRead : Prop :=
  ∀ round (mission : List (String × PayloadSource)) names, (∀ n ∈ names, ∃ e, mission.lookup n = some e ∧ GoodTable e.table) →
    ∃ l, readPayloads round mission names = .ok l ∧ l.map Prod.fst = names

end Oplab.Spec
