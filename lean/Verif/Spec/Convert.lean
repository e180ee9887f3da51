import Verif.Model.Convert

/-! What conversion, the worker pool and the GAPS parser should do. -/

namespace Oplab.Spec

/-- Every file that was there before is unchanged. -/
def Unchanged (before after : Disk) : Prop := ∀ p t, before.file p = some t → after.file p = some t

/-- On a real disk, a file lies in folders that exist. -/
def RealDisk (d : Disk) : Prop := ∀ p t, d.file p = some t → ∀ q, q <+: p → q ≠ p → d.dir q = true

/-- The conversion is protected: without the force flag it leaves every existing file alone. -/
def NoOverwrite (steps : List ConvStep) : Prop :=
  ∀ d, RealDisk d → Unchanged d (runConv false d steps).1

/-- The result of running the parsers one after the other: all their results joined in order, or the error of the first
one that fails. -/
def oneByOne {A : Type} : List (TaskEnd (List A)) → Res (List A)
  | [] => .ok []
  | .ret r :: ts => match oneByOne ts with
    | .ok rest => .ok (r ++ rest)
    | .error e => .error e
  | .exc e :: _ => .error e
  | .exit :: _ => .error .quit

/-- The time a telegram states: all its fields are numbers, form a valid date and time of day, and `e` is that instant
(time zone `tz` hours, clock offset `off` seconds). -/
def StatesTime (tz off : ℚ) (t : GapsTime) (e : ℚ) : Prop :=
  ∃ y mo d h mi s ms e0, t = ⟨some (y, mo, d), some h, some mi, some s, some ms⟩ ∧ ms < 1000 ∧
    dateTimeToEpoch ⟨y, mo, d, h, mi, s, ms * 1000⟩ tz = .ok e0 ∧ e = e0 + off

end Oplab.Spec
