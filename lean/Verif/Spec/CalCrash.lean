import Verif.Model.CalCrash

/-! # What is asked of calibrations that are stopped -/

namespace Oplab.Spec

variable {C D : Type}

/-- No file of the folder was being written when the program was killed. -/
def NoPart (s : CalFolder C D) : Prop := (∀ f, s.yaml f ≠ some .part) ∧ ∀ f, s.json f ≠ some .part

/-- The state of the folder if the run is killed at some point: that before the run, or one of those during it. -/
def KilledIn (r : CalTrace C D) (s0 s : CalFolder C D) : Prop := s = s0 ∨ s ∈ r.1

/-- A folder without incomplete files, as `CalFiles` sees it. -/
def asFolder (s : CalState C D) : CalFolder C D := ⟨fun f => (s.yaml f).map .whole, fun f => (s.json f).map .whole⟩

/-- A command can be repeated: if it is killed at any point and then run again, the folder is as if it had not been killed. -/
def CanRepeat (run : CalFolder C D → CalTrace C D) : Prop :=
  ∀ s0 s : CalFolder C D, NoPart s0 → KilledIn (run s0) s0 s → (run s).final s = (run s0).final s0

/-- The same if it is only killed while no file is being written. -/
def CanRepeatBetween (run : CalFolder C D → CalTrace C D) : Prop :=
  ∀ s0 s : CalFolder C D, NoPart s0 → KilledIn (run s0) s0 s → NoPart s → (run s).final s = (run s0).final s0

end Oplab.Spec
